import Verif.Proofs.SoftText
import Verif.Props.C27
import Verif.Props.C30
/-!
# C27 and C30 for IEEE floats
The round trips of `C27_round_trip_partial` and `C30_round_trip_partial`, on core's `f32` and `f64` and diman's `Magnitude`. Assumed of the
platform: a float is read back from the text it prints (`FloatText.RoundTrips`); powers of two are correctly rounded and powers of one are
one (`FloatLib.Ones`, met by compiler-rt's `powi`: `rtLib_ones`, and by num-traits': `ntLib_ones`).
-/
set_option linter.unusedSectionVars false
set_option linter.style.haveILetI false
namespace Diman

/-- A float that fits its type: any value of `f32` or `f64`, infinities and NaN included. -/
abbrev Storage.ValidFloat (s : Storage) (x : Fl) : Prop := s.base.fmt.Valid x

variable (P : PlatformFns) (T : FloatText)

/-- **C27 for IEEE floats, integer exponents.** -/
theorem C27_float_int_partial (platform : P.lib.Ones) (text : T.RoundTrips) :
    letI := magOpsInt P.lib; letI := softPrims P; letI := softText T
    ∀ (factor : Prefix → Magnitude) (t : UnresolvedTemplates Int Magnitude) (defs : Defs Int Magnitude)
    (_ : runUnitSystem factor t = some (defs, []))
    (_ : defs.baseDimensions.Nodup)
    (_ : ∀ d ∈ t.dimensions, d.rhs = .base () → ∃ v ∈ t.units, v.definition = .base d.name)
    (_ : t.PlainSymbols)
    (_ : ∀ U ∈ defs.units, TextPrims.finite Magnitude (Prims.into .f64 U.mag : Fl) = true)
    (d : DimVal Int) (_ : d.length = defs.baseDimensions.length) (_ : ∀ e ∈ d, InI32 e)
    (s : Storage) (xs : Raw Fl) (_ : xs.length = s.numDims) (_ : ∀ x ∈ xs, s.ValidFloat x),
    ∃ out, serializeStr Magnitude defs s d xs = some out ∧ deserializeStr Magnitude defs s d out = some (.ok xs) := by
  letI := magOpsInt P.lib; letI := softPrims P; letI := softText T; letI := softLawfulInt P T platform text
  intro factor t defs ha hn hb hs hf d hl hi s xs hx hv
  have hlit := C18_literals_int (UnresolvedTemplates.expand (MagOps.one Int) factor t)
  have hint : ∀ e ∈ d, ∃ i : Int, InI32 i ∧ e = Exponent.ofInt i := fun e he => ⟨e, hi e he, rfl⟩
  by_cases hfl : s.isFloat = true
  · have h1 : s.numDims = 1 := by cases s <;> simp_all [Storage.isFloat, Storage.numDims]
    obtain ⟨x, rfl⟩ := List.length_eq_one_iff.1 (hx.trans h1)
    exact C27_round_trip_partial factor t defs ha hlit hn hb hs hf d hl hint s hfl x (hv x (by simp))
  · exact C30_round_trip_partial factor t defs ha hlit hn hb hs hf d hl hint s (by simpa using hfl) xs hx hv

/-- **C27 for IEEE floats, rational exponents.** -/
theorem C27_float_rational_partial (platform : P.lib.Ones) (text : T.RoundTrips) :
    letI := magOpsRatio P.lib; letI := softPrims P; letI := softText T
    ∀ (factor : Prefix → Magnitude) (t : UnresolvedTemplates Ratio Magnitude) (defs : Defs Ratio Magnitude)
    (_ : runUnitSystem factor t = some (defs, []))
    (_ : (UnresolvedTemplates.expand (MagOps.one Ratio) factor t).LitExponents (WrittenExponent.Ok : Ratio → Prop))
    (_ : defs.baseDimensions.Nodup)
    (_ : ∀ d ∈ t.dimensions, d.rhs = .base () → ∃ v ∈ t.units, v.definition = .base d.name)
    (_ : t.PlainSymbols)
    (_ : ∀ U ∈ defs.units, TextPrims.finite Magnitude (Prims.into .f64 U.mag : Fl) = true)
    (d : DimVal Ratio) (_ : d.length = defs.baseDimensions.length) (_ : ∀ e ∈ d, ∃ i : Int, InI32 i ∧ e = ⟨i, 1⟩)
    (s : Storage) (xs : Raw Fl) (_ : xs.length = s.numDims) (_ : ∀ x ∈ xs, s.ValidFloat x),
    ∃ out, serializeStr Magnitude defs s d xs = some out ∧ deserializeStr Magnitude defs s d out = some (.ok xs) := by
  letI := magOpsRatio P.lib; letI := softPrims P; letI := softText T; letI := softLawfulRatio P T platform text
  intro factor t defs ha hlit hn hb hs hf d hl hint s xs hx hv
  by_cases hfl : s.isFloat = true
  · have h1 : s.numDims = 1 := by cases s <;> simp_all [Storage.isFloat, Storage.numDims]
    obtain ⟨x, rfl⟩ := List.length_eq_one_iff.1 (hx.trans h1)
    exact C27_round_trip_partial factor t defs ha hlit hn hb hs hf d hl hint s hfl x (hv x (by simp))
  · exact C30_round_trip_partial factor t defs ha hlit hn hb hs hf d hl hint s (by simpa using hfl) xs hx hv

/-! ## The assumptions can be met -/

/-- A (wasteful) text for floats: the sign, then as many ones as the bit pattern counts. -/
def unaryText : FloatText where
  showF _
    | .nan => ['N']
    | .num s n => (if s then '-' else '+') :: List.replicate n '1'
  parseF _
    | '-' :: l => some (.num true l.length)
    | '+' :: l => some (.num false l.length)
    | _ => some .nan

example : unaryText.RoundTrips where
  parse_show t x _ := by
    cases x with
    | nan => rfl
    | num s n => cases s <;> simp [unaryText]
  show_plain t x _ := by
    cases x with
    | nan => exact ⟨by simp [unaryText], by simp only [unaryText]; decide⟩
    | num s n =>
      refine ⟨by simp [unaryText], fun c hc => ?_⟩
      have : c = '-' ∨ c = '+' ∨ c = '1' := by
        cases s <;> simp [unaryText] at hc <;> tauto
      rcases this with rfl | rfl | rfl <;> decide

example : (rtLib fun x _ => x).Ones := rtLib_ones fun _ => rfl
example : (ntLib fun x _ => x).Ones := ntLib_ones fun _ => rfl

end Diman
