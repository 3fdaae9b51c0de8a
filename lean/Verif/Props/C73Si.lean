import Verif.Props.C63
import Verif.Props.C73
/-!
# C73 in the SI system
-/
set_option linter.unusedSectionVars false
namespace Diman

/-- **C73 for the generated code of src/si.rs.** A quantity of any dimension (exponents in the range of `i32`), whatever its number, printed with any
options that fill with blanks, prints without panic and is read back as the number that was written. -/
theorem C73_si (std : Bool) (powf : Fl → Fl → Fl) (powf_one : ∀ y, powf (f64Fmt.ofInt 1) y = f64Fmt.ofInt 1) (P : PlatformFns)
    (hP : P.lib = buildLib std powf) :
    letI := magOpsInt P.lib; letI := softPrims P; letI := softText coreText
    ∃ tokens defs, lex siLines = some tokens ∧ unitSystem (E := Int) Number.magnitude Prefix.factor tokens = .done (defs, []) ∧
      ∀ (d : DimVal Int) (s : Storage) (x : Fl) (o : FmtSpec), d.length = 7 → (∀ e ∈ d, InI32 e) → s.isFloat = true → s.base.fmt.Valid x → o.fill = ' ' →
        ∃ text y, debugWith o defs s d [x] = some text ∧ deserializeStr Magnitude defs s d text = some (.ok [y]) ∧ ReadBack o s.base x y := by
  have hl : P.lib.Ones := by rw [hP]; exact buildLib_ones std powf_one
  have c46 := C46_si_float std powf
  rw [← hP] at c46
  let := magOpsInt P.lib; let := softPrims P; let := softText coreText
  let := softLawfulInt P coreText hl coreText_roundTrips
  obtain ⟨t, defs, F⟩ := si_facts (C36_int Number.magnitude Prefix.factor) c46
  obtain ⟨tokens, h1, h2⟩ := F.text
  have distinct : defs.baseDimensions.Nodup := by rw [F.base]; decide
  have seven : defs.baseDimensions.length = 7 := by rw [F.base]; rfl
  have finite : ∀ U ∈ defs.units, TextPrims.finite Magnitude (Prims.into .f64 U.mag : Fl) = true := by
    intro U hU
    obtain ⟨r, hr, pre, _, e2, _⟩ := F.units U hU
    exact text_finite coreText (si_storable hr e2).1
  refine ⟨tokens, defs, h1, h2, fun d s x o hd hi hs hx ho => ?_⟩
  exact C73_read_back_int P hl Prefix.factor t defs F.run distinct F.hasBase F.plain finite d (by rw [hd, seven]) hi s hs x hx o ho

-- A quarter of a kilogram, printed with one decimal and centred in ten columns, is read back as the float nearest to 0.2.
example (P : PlatformFns) (hP : P.lib = buildLib true fun _ _ => f64Fmt.ofInt 1) :
    letI := magOpsInt P.lib; letI := softPrims P; letI := softText coreText
    ∃ (defs : Defs Int Magnitude) (text : Str),
      debugWith { width := some 10, align := some .center, precision := some 1 } defs .f64 ([0, 0, 1, 0, 0, 0, 0] : DimVal Int)
        [.num false 0x3fd0000000000000] = some text ∧
      ∃ y, deserializeStr Magnitude defs .f64 ([0, 0, 1, 0, 0, 0, 0] : DimVal Int) text = some (.ok [y]) ∧
        ∃ q, FixedDecimal "0.2".toList 1 q ∧ y = Fl.num false (f64Fmt.round q) := by
  obtain ⟨_, defs, _, _, h⟩ := C73_si true _ (fun _ => rfl) P hP
  obtain ⟨text, y, h1, h2, -, h3⟩ := h [0, 0, 1, 0, 0, 0, 0] .f64 (.num false 0x3fd0000000000000)
    { width := some 10, align := some .center, precision := some 1 } rfl (by decide) rfl
    (show 0x3fd0000000000000 ≤ f64Fmt.infBits by decide) rfl
  obtain ⟨q, h4, -, h5⟩ := h3 1 false _ rfl rfl (by decide)
  have hb : ({ width := some 10, align := some .center, precision := some 1 } : FmtSpec).body f64Fmt (.num false 0x3fd0000000000000) = "0.2".toList := by
    decide +kernel
  exact ⟨defs, text, h1, y, h2, q, hb ▸ h4, h5⟩
end Diman
