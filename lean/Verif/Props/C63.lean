import Verif.Props.C62
/-!
# C63 — Texts of SI quantities
Printing, serialising and deserialising quantities of the `si` module (default build), with core's number text. No assumption is left except
that the platform's `powf` returns one for the base one (used nowhere with integer exponents, but part of `FloatLib.Ones`).
-/
set_option linter.unusedSectionVars false
namespace Diman
open LawfulExponent

/-- All prefixes. -/
def allPrefixes : List (Option Prefix) := none :: Prefix.all.map some

theorem mem_allPrefixes (p : Option Prefix) : p ∈ allPrefixes := by
  cases p with
  | none => simp [allPrefixes]
  | some p => cases p <;> decide

set_option maxRecDepth 10000 in
/-- No unit of the table is almost but not quite coherent. -/
theorem si_coherent : ∀ r ∈ siUnits, ∀ pre ∈ allPrefixes,
    |1 - 10 ^ (siPrefix? pre).power * r.value| ≤ 34 / 2 ^ 52 * |10 ^ (siPrefix? pre).power * r.value| → 10 ^ (siPrefix? pre).power * r.value = 1 := by
  decide +kernel

theorem buildLib_ones (std : Bool) {powf : Fl → Fl → Fl} (h : ∀ y, powf (f64Fmt.ofInt 1) y = f64Fmt.ofInt 1) : (buildLib std powf).Ones := by
  cases std
  · exact ntLib_ones h
  · exact rtLib_ones h

theorem words_length {text : Str} {ws : List Str} (h : Words text ws) : ws.length ≤ text.length := by
  induction h with
  | blank _ => simp
  | @word gap w rest ws _ hne _ _ _ ih =>
    have := List.length_pos_iff.2 hne
    simp only [List.length_cons, List.length_append]; omega

/-- **C63.** For the generated code of src/si.rs, with and without feature `std`, dimensions being the seven exponents of length, time, mass,
temperature, current, amount of substance and luminous intensity:
* `{:?}` of a quantity of any dimension never panics; it prints the stored value and then symbols of coherent SI units (rows of the SI table with
  value exactly one), whose powers multiply to exactly the dimension;
* serialising a quantity (`f32`, `f64` or vector, whatever its numbers, exponents in the range of `i32`) and deserialising the text gives the quantity
  back, bit for bit;
* deserialising a text of fewer than 2²⁹ characters never panics, whatever the text, the storage type and the requested dimension. -/
theorem C63_si (std : Bool) (powf : Fl → Fl → Fl) (powf_one : ∀ y, powf (f64Fmt.ofInt 1) y = f64Fmt.ofInt 1) (P : PlatformFns)
    (hP : P.lib = buildLib std powf) :
    letI := magOpsInt P.lib; letI := softPrims P; letI := softText coreText
    ∃ tokens defs, lex siLines = some tokens ∧ unitSystem (E := Int) Number.magnitude Prefix.factor tokens = .done (defs, []) ∧
      defs.baseDimensions = siBaseFields ∧
      (∀ (d : DimVal Int) (value : Str), d.length = 7 →
        ∃ terms : List (UnitTerm Int Magnitude), debugFmt Fl defs d value = some (value ++ (terms.map UnitTerm.text).flatten) ∧
          d.vec = siBaseFields.map (fun k => (terms.map fun u => u.power * u.unit.dims.expo k).sum) ∧
          ∀ u ∈ terms, u.unit ∈ defs.units ∧ ∃ r ∈ siUnits, ∃ pre sym, r.symbol = some sym ∧ u.symbol = (siPrefix? pre).symbol ++ sym ∧
            10 ^ (siPrefix? pre).power * r.value = 1 ∧ ∀ k, u.unit.dims.expo k = r.dim.of k) ∧
      (∀ (d : DimVal Int) (s : Storage) (xs : Raw Fl), d.length = 7 → (∀ e ∈ d, InI32 e) → xs.length = s.numDims → (∀ x ∈ xs, s.base.fmt.Valid x) →
        ∃ text, serializeStr Magnitude defs s d xs = some text ∧ deserializeStr Magnitude defs s d text = some (.ok xs)) ∧
      (∀ (d : DimVal Int) (s : Storage) (text : Str), text.length < 2 ^ 29 →
        ∃ o : Outcome (Raw Fl), deserializeStr Magnitude defs s d text = some o ∧ o ≠ .panic) := by
  have hl : P.lib.Ones := by rw [hP]; exact buildLib_ones std powf_one
  have c46 := C46_si_float std powf
  rw [← hP] at c46
  let := magOpsInt P.lib; let := softPrims P; let := softText coreText
  let := softLawfulInt P coreText hl coreText_roundTrips
  obtain ⟨t, defs, F⟩ := si_facts (C36_int Number.magnitude Prefix.factor) c46
  obtain ⟨tokens, h1, h2⟩ := F.text
  have distinct : defs.baseDimensions.Nodup := by rw [F.base]; decide
  have seven : defs.baseDimensions.length = 7 := by rw [F.base]; rfl
  have finite : ∀ U ∈ defs.units, TextPrims.finite Magnitude (Prims.into .f64 U.mag : Fl) = true := by
    intro U hU
    obtain ⟨r, hr, pre, _, e2, _⟩ := F.units U hU
    exact text_finite coreText (si_storable hr e2).1
  have bound : ∀ U ∈ defs.units, ∀ k, |U.dims.expo k| ≤ (4 : Nat) := by
    intro V hV k
    obtain ⟨r, hr, pre, e1, _, _⟩ := F.units V hV
    rw [e1 k]
    exact_mod_cast SiExps.of_le (by norm_num) (siUnits_range r hr).2 k
  refine ⟨tokens, defs, h1, h2, F.base, ?_, ?_, ?_⟩
  · intro d value hd
    obtain ⟨terms, ht, hf⟩ := C26_debug_partial (K := Fl) Prefix.factor t defs F.run (C18_literals_int _) distinct F.hasBase d (by rw [hd, seven]) value
    refine ⟨terms, hf, ?_, ?_⟩
    · rw [← F.base]; exact ht.dimension
    · intro u hu
      obtain ⟨hU, hs⟩ := ht.units u hu
      refine ⟨hU, ?_⟩
      obtain ⟨r, hr, pre, e1, ⟨q, hq, he⟩, e3⟩ := F.units _ hU
      rcases e3 with e3 | e3
      · rw [hs] at e3; cases e3
      · rw [hs] at e3
        obtain ⟨sym, hsym, e⟩ := Option.map_eq_some_iff.1 e3.symm
        refine ⟨r, hr, pre, sym, hsym, e.symm, ?_, e1⟩
        have hone : u.unit.mag.intoF64 P.lib = f64Fmt.ofInt 1 := LawfulText.isOne_into (E := Int) (K := Fl) (ht.one u hu)
        rw [hone, show f64Fmt.val (f64Fmt.ofInt 1) = some 1 by decide +kernel, Option.some.injEq] at hq
        subst hq
        refine si_coherent r hr pre (mem_allPrefixes pre) (he.trans (mul_le_mul_of_nonneg_right ?_ (abs_nonneg _)))
        cases std <;> norm_num
  · intro d s xs hd hi hx hv
    exact C27_core_int_partial P hl Prefix.factor t defs F.run distinct F.hasBase F.plain finite d (by rw [hd, seven]) hi s xs hx
      (fun x hx => hv x hx)
  · intro d s text hlen
    obtain ⟨o, ho⟩ := C28_compiles (K := Fl) (M := Magnitude) Prefix.factor t defs F.run (C18_literals_int _) distinct finite s d text
    refine ⟨o, ho, ?_⟩
    cases hs : s.isFloat with
    | false =>
      exact C30_no_panic Prefix.factor t defs F.run (C18_literals_int _) s hs d text o ho 4 bound 1 one_pos (by norm_num)
        (fun U _ k => int_denominator _ k) (by omega)
    | true =>
      have hw := words_splitWs text
      have hn := words_length hw
      exact C28_no_panic Prefix.factor t defs F.run (C18_literals_int _) s hs d text o ho 4 bound 1 one_pos (by norm_num)
        (fun U _ k => int_denominator _ k) _ hw (by omega)

/-! ### Concrete quantities -/

-- A force vector (1, -0, NaN) in single precision: serialised, and read back bit for bit.
example (P : PlatformFns) (hP : P.lib = buildLib true fun _ _ => f64Fmt.ofInt 1) :
    letI := magOpsInt P.lib; letI := softPrims P; letI := softText coreText
    ∃ (defs : Defs Int Magnitude) (text : Str),
      serializeStr Magnitude defs .vec3 ([1, -2, 1, 0, 0, 0, 0] : DimVal Int) [f32Fmt.ofInt 1, .num true 0, .nan] = some text ∧
      deserializeStr Magnitude defs .vec3 ([1, -2, 1, 0, 0, 0, 0] : DimVal Int) text = some (.ok [f32Fmt.ofInt 1, .num true 0, .nan]) := by
  obtain ⟨_, defs, _, _, _, _, h, _⟩ := C63_si true _ (fun _ => rfl) P hP
  obtain ⟨text, h1, h2⟩ := h [1, -2, 1, 0, 0, 0, 0] .vec3 [f32Fmt.ofInt 1, .num true 0, .nan] rfl (by decide) rfl (by
    intro x hx
    simp only [List.mem_cons, List.not_mem_nil, or_false] at hx
    rcases hx with rfl | rfl | rfl
    · show f32Fmt.Valid (f32Fmt.ofInt 1)
      rw [show f32Fmt.ofInt 1 = .num false (127 * 2 ^ 23) by decide +kernel]
      show 127 * 2 ^ 23 ≤ f32Fmt.infBits
      decide
    · exact Nat.zero_le _
    · trivial)
  exact ⟨defs, text, h1, h2⟩

-- "7 apples" is refused or accepted, in no case does reading it panic.
example (P : PlatformFns) (hP : P.lib = buildLib false fun _ _ => f64Fmt.ofInt 1) :
    letI := magOpsInt P.lib; letI := softPrims P; letI := softText coreText
    ∃ (defs : Defs Int Magnitude), ∃ o : Outcome (Raw Fl),
      deserializeStr Magnitude defs .f64 ([1, 0, 0, 0, 0, 0, 0] : DimVal Int) (str!"7 apples") = some o ∧ o ≠ .panic := by
  obtain ⟨_, defs, _, _, _, _, _, h⟩ := C63_si false _ (fun _ => rfl) P hP
  exact ⟨defs, h _ _ _ (by decide)⟩

end Diman
