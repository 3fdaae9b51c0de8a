import Verif.Proofs.TextPanic
import Verif.Spec.Ideal
import Verif.Examples.TextSample
/-!
# C28 — Deserialisation never produces a quantity of the wrong dimension
`deserializeStr` is the generated `visit_str` in the unit system `defs`; `none` means that the generated code does not compile. The meaning
of a text is `FloatReading` (a number, then unit symbols with integer powers; see `Spec/Text.lean`).
-/
set_option linter.unusedSectionVars false
namespace Diman

/-! ## Exact numbers -/

/-- How core prints and parses numbers, arbitrary here. -/
class IdealText where
  showF : FloatTy → ℝ → Str
  parseF : FloatTy → Str → Option ℝ

/-- Text on exact numbers. -/
noncomputable instance idealText [IdealText] : TextPrims ℝ ℝ where
  showF := IdealText.showF
  parseF := IdealText.parseF
  ofInt _ i := i
  ofF64 _ x := x
  fromF64 x := x
  finite _ := true

/-- Exact real conversion factors (integer exponents). -/
@[reducible] noncomputable def realMag : MagOps Int ℝ where
  one := 1
  mul := (· * ·)
  div := (· / ·)
  pow x e := x ^ e
  isOne x := by classical exact decide (x = 1)

section
variable {E K M : Type} [Exponent E] [LawfulExponent E] [FieldOps E] [LawfulFieldOps E] [WrittenExponent E] [MagOps E M]
  [Prims K M] [TextPrims K M]

/-- **C28.** In an accepted unit system, deserialising a string as a float quantity of dimension `target` either succeeds or reports an
error (or panics by integer overflow, see below), and it succeeds with result `r` if and only if the string is a number followed by known
unit symbols with integer powers whose combined dimension is `target`, `r` being the number times the product of the units' conversion
factors to those powers. -/
theorem C28_float_iff (factor : Prefix → M) (t : UnresolvedTemplates E M) (defs : Defs E M)
    (accepted : runUnitSystem factor t = some (defs, []))
    (literals : (UnresolvedTemplates.expand (MagOps.one E) factor t).LitExponents (WrittenExponent.Ok : E → Prop))
    (s : Storage) (float : s.isFloat = true) (target : DimVal E) (canonical : target.Canonical) (text : Str) (o : Outcome (Raw K))
    (compiled : deserializeStr M defs s target text = some o) (noPanic : o ≠ .panic) (r : Raw K) :
    o = .ok r ↔ FloatReading M defs s.base text target r := by
  obtain ⟨res, h⟩ := accepted_of_run accepted
  unfold deserializeStr at compiled
  rw [bindM_eq_some] at compiled
  obtain ⟨tbl, ht, compiled⟩ := compiled
  simp only [float, if_true, pure_eq_some] at compiled
  subst compiled
  unfold visitStrFloat at noPanic ⊢
  rw [splitWs_trim] at noPanic ⊢
  unfold FloatReading
  constructor
  · intro ho
    cases hw : splitWs text with
    | nil => rw [hw] at ho; cases ho
    | cons w ws =>
      rw [hw] at ho
      simp only [Outcome.bind_ok, Outcome.orError_ok] at ho
      obtain ⟨x, hx, ⟨d, f⟩, hr, hm⟩ := ho
      obtain ⟨vs, g1, g2, g3, rfl⟩ := (readUnits_spec h literals ht ws).1 d f hr
      unfold ifDimensionsMatch at hm
      split at hm
      · rename_i hd
        simp only at hd
        subst hd
        exact ⟨w, ws, splitWs_iff.1 hw, x, hx, vs, g1, g2, by injection hm with hm; exact hm.symm⟩
      · cases hm
  · rintro ⟨w, ws, hw, x, hx, vs, g1, g2, rfl⟩
    rw [splitWs_iff.2 hw] at noPanic ⊢
    simp only [hx, Outcome.orError, Outcome.bind] at noPanic ⊢
    rcases (readUnits_spec h literals ht ws).2 vs g1 with hp | ⟨d, hd, hc, he⟩
    · rw [hp] at noPanic; exact absurd rfl noPanic
    · rw [hd]
      have : d = target := DimVal.ext hc canonical (he.trans g2.symm)
      simp only [ifDimensionsMatch, this, if_true]

/-- **C28, only the right dimension.** Whatever the string, a successful result has exactly the requested dimension: the units named in the
string have, for every base dimension, exponents adding up to the requested exponent. -/
theorem C28_dimension (factor : Prefix → M) (t : UnresolvedTemplates E M) (defs : Defs E M)
    (accepted : runUnitSystem factor t = some (defs, []))
    (literals : (UnresolvedTemplates.expand (MagOps.one E) factor t).LitExponents (WrittenExponent.Ok : E → Prop))
    (s : Storage) (float : s.isFloat = true) (target : DimVal E) (canonical : target.Canonical) (text : Str) (r : Raw K)
    (run : deserializeStr M defs s target text = some (.ok r)) :
    ∃ num ws, Words text (num :: ws) ∧ ∃ us, NamesUnits defs ws us ∧
      target.vec = defs.baseDimensions.map fun k => (us.map fun ue => (ue.2 : ℚ) * ue.1.dims.expo k).sum := by
  obtain ⟨num, ws, hw, _, _, us, h1, h2, _⟩ := (C28_float_iff factor t defs accepted literals s float target canonical text _ run
    (by simp) r).1 rfl
  exact ⟨num, ws, hw, us, h1, h2⟩

/-- The generated code compiles if the base dimensions have distinct field names and the conversion factors are finite. -/
theorem C28_compiles (factor : Prefix → M) (t : UnresolvedTemplates E M) (defs : Defs E M)
    (accepted : runUnitSystem factor t = some (defs, []))
    (literals : (UnresolvedTemplates.expand (MagOps.one E) factor t).LitExponents (WrittenExponent.Ok : E → Prop))
    (distinct : defs.baseDimensions.Nodup) (finite : ∀ U ∈ defs.units, TextPrims.finite M (Prims.into .f64 U.mag : K) = true)
    (s : Storage) (target : DimVal E) (text : Str) :
    ∃ o : Outcome (Raw K), deserializeStr M defs s target text = some o := by
  obtain ⟨tbl, ht⟩ := unitTable_isSome (K := K) (M := M) (bd := defs.baseDimensions) (units := defs.units)
    (fun u hu => by
      obtain ⟨v, hv, _⟩ := C18_exponents factor t defs accepted literals distinct _ (unit_mem_allDims hu)
      exact ⟨v, hv⟩)
    (fun u hu _ => finite u hu)
  unfold deserializeStr
  simp only [ht, Option.bind_eq_bind, Option.bind_some]
  split <;> exact ⟨_, rfl⟩

end

/-! ## Exact arithmetic -/
section
variable [IdealFns] [IdealText]
attribute [local instance] realMag

theorem factor_real (us : UnitPowers Int ℝ) : us.factor ℝ = (us.map fun ue => ue.1.mag ^ ue.2).prod := by
  unfold UnitPowers.factor
  have key : ∀ (us : UnitPowers Int ℝ) (a : ℝ), us.foldl (fun f ue => Prims.mul ℝ .f64 f
      (Prims.into .f64 (MagOps.pow (TextPrims.fromF64 (Prims.into .f64 ue.1.mag : ℝ)) (Exponent.ofInt ue.2 : Int) : ℝ))) a =
      a * (us.map fun ue => ue.1.mag ^ ue.2).prod := by
    intro us
    induction us with
    | nil => intro a; simp
    | cons u us ih =>
      intro a
      rw [List.foldl_cons, ih, List.map_cons, List.prod_cons]
      change a * u.1.mag ^ u.2 * _ = _
      ring
  rw [key]
  exact one_mul _

/-- **C28, value.** On exact numbers the deserialised value is the number times the product of the units' conversion factors to the given
powers. -/
theorem C28_value (factor : Prefix → ℝ) (t : UnresolvedTemplates Int ℝ) (defs : Defs Int ℝ)
    (accepted : runUnitSystem factor t = some (defs, []))
    (s : Storage) (float : s.isFloat = true) (target : DimVal Int) (text : Str) (r : Raw ℝ)
    (run : deserializeStr ℝ defs s target text = some (.ok r)) :
    ∃ num ws, Words text (num :: ws) ∧ ∃ x, IdealText.parseF s.base num = some x ∧ ∃ us, NamesUnits defs ws us ∧
      HasDimension defs us target ∧ r = [x * (us.map fun ue => ue.1.mag ^ ue.2).prod] := by
  obtain ⟨num, ws, hw, x, hx, us, h1, h2, h3⟩ := (C28_float_iff factor t defs accepted (C18_literals_int _) s float target
    (fun _ _ => trivial) text _ run (by simp) r).1 rfl
  exact ⟨num, ws, hw, x, hx, us, h1, h2, by rw [h3, ← factor_real]; rfl⟩
end
/-! ## Panics -/
section
variable {E K M : Type} [Exponent E] [LawfulExponent E] [FieldOps E] [LawfulFieldOps E] [TotalFields E] [WrittenExponent E] [MagOps E M]
  [Prims K M] [TextPrims K M]

/-- **C28, no panic.** Let `B` bound the absolute value of every exponent of every unit and let `L` be a common denominator of these
exponents (`L = 1` for integer exponents). Deserialising a string of fewer than `2^32 / (B L²)` words never panics. (Without such a bound
it can: `C28_overflow_refuted`.) -/
theorem C28_no_panic (factor : Prefix → M) (t : UnresolvedTemplates E M) (defs : Defs E M)
    (accepted : runUnitSystem factor t = some (defs, []))
    (literals : (UnresolvedTemplates.expand (MagOps.one E) factor t).LitExponents (WrittenExponent.Ok : E → Prop))
    (s : Storage) (float : s.isFloat = true) (target : DimVal E) (text : Str) (o : Outcome (Raw K))
    (compiled : deserializeStr M defs s target text = some o)
    (B : Nat) (bound : ∀ U ∈ defs.units, ∀ k, |U.dims.expo k| ≤ B)
    (L : Nat) (positive : 0 < L) (small : L < 2 ^ 31) (denominator : ∀ U ∈ defs.units, ∀ k, ∃ z : Int, U.dims.expo k * L = z)
    (words : List Str) (hw : Words text words) (short : words.length * B * L ^ 2 < 2 ^ 32) : o ≠ .panic := by
  obtain ⟨res, h⟩ := accepted_of_run accepted
  have hL2 : L ^ 2 < 2 ^ 63 := lt_of_lt_of_le (Nat.pow_lt_pow_left small two_ne_zero) (by norm_num)
  unfold deserializeStr at compiled
  rw [bindM_eq_some] at compiled
  obtain ⟨tbl, ht, compiled⟩ := compiled
  simp only [float, if_true, pure_eq_some] at compiled
  subst compiled
  unfold visitStrFloat
  rw [splitWs_trim, splitWs_iff.2 hw]
  cases words with
  | nil => simp
  | cons w ws =>
    simp only
    cases (TextPrims.parseF M s.base w : Option K) with
    | none => simp [Outcome.orError, Outcome.bind]
    | some x =>
      simp only [Outcome.orError, Outcome.bind]
      have hn := readUnits_no_panic h literals ht positive hL2 bound denominator (ws := ws) (lt_of_le_of_lt (by
        rw [List.length_cons]; gcongr; exact Nat.le_succ _) short)
      cases hr : readUnits M tbl (DimVal.none defs.baseDimensions.length) (Prims.one M .f64 : K) ws with
      | panic => exact absurd hr hn
      | error => simp
      | ok r => simp only [ifDimensionsMatch]; split <;> simp

end

/-! ## Concrete runs -/
section
open Sample
attribute [local instance] Sample.exactMag Sample.ratPrims Sample.ratText

/-- Deserialising in the resolved sample system, evaluated. -/
theorem sample_deserialize (s : Storage) (target : DimVal Int) (text : Str) (o : Outcome (Raw ℚ))
    (h : ((resolveDefsFuel (UnresolvedTemplates.expand 1 exactFactor sample)).bind fun p =>
      deserializeStr ℚ p.1 s target text) = some o) :
    ∃ defs, runUnitSystem exactFactor sample = some (defs, []) ∧ deserializeStr ℚ defs s target text = some o := by
  obtain ⟨defs, hd⟩ := sample_accepted
  refine ⟨defs, hd, ?_⟩
  have : resolveDefs (UnresolvedTemplates.expand 1 exactFactor sample) = some (defs, []) := hd
  rw [resolveDefs_eq_fuel] at this
  rw [this] at h
  simpa using h

-- "3 km s^-2" is read as an acceleration of 3000; as a length, it is refused.
example : ∃ defs, runUnitSystem exactFactor sample = some (defs, []) ∧
    deserializeStr ℚ defs .f64 [1, -2, 0, 0] (str!" 3 km  s^-2") = some (.ok [(3000 : ℚ)]) :=
  sample_deserialize _ _ _ _ (by decide +kernel)
example : ∃ defs, runUnitSystem exactFactor sample = some (defs, []) ∧
    deserializeStr ℚ defs .f64 [1, 0, 0, 0] (str!"3 km s^-2") = some (.error : Outcome (Raw ℚ)) :=
  sample_deserialize _ _ _ _ (by decide +kernel)
-- Unknown units, missing numbers and malformed exponents are refused.
example : ∃ defs, runUnitSystem exactFactor sample = some (defs, []) ∧
    deserializeStr ℚ defs .f64 [1, 0, 0, 0] (str!"3 miles") = some (.error : Outcome (Raw ℚ)) :=
  sample_deserialize _ _ _ _ (by decide +kernel)
example : ∃ defs, runUnitSystem exactFactor sample = some (defs, []) ∧
    deserializeStr ℚ defs .f64 [1, 0, 0, 0] (str!"3 m^1^1") = some (.error : Outcome (Raw ℚ)) :=
  sample_deserialize _ _ _ _ (by decide +kernel)

/-- Exact factors, with a fast power of one. -/
@[reducible] def fastMag : MagOps Int ℚ where
  one := 1
  mul := (· * ·)
  div := (· / ·)
  pow x e := if x = 1 then 1 else x ^ e
  isOne x := decide (x = 1)

/-- A unit system with a unit of dimension Length^(2^62). -/
def hugeSystem : UnresolvedTemplates Int ℚ where
  quantityTypes := [str!"Quantity"]
  dimensionTypes := [str!"Dimension"]
  dimensions := [⟨str!"Length", .base ()⟩]
  units := [baseUnit (str!"meters") (str!"m") (str!"Length") [],
    unit (str!"huge") (.value (pw (str!"meters") (2 ^ 62))) (some (str!"h"))]
  constants := []

/-- **C28, panics do occur.** There is an accepted unit system and a string that makes deserialisation overflow (in a debug build: panic)
instead of returning an error: the exponents of the units named in the string are multiplied and added as `i64` without a check. -/
theorem C28_overflow_refuted : letI := fastMag
    ∃ defs, runUnitSystem exactFactor hugeSystem = some (defs, []) ∧
      deserializeStr ℚ defs .f64 [0] (str!"1 h^4") = some (.panic : Outcome (Raw ℚ)) := by
  letI := fastMag
  have h : (resolveDefsFuel (UnresolvedTemplates.expand 1 exactFactor hugeSystem)).any (fun p => p.2.isEmpty &&
      decide (deserializeStr ℚ p.1 .f64 [0] (str!"1 h^4") = some (.panic : Outcome (Raw ℚ)))) = true := by decide +kernel
  unfold runUnitSystem
  rw [resolveDefs_eq_fuel]
  change ∃ defs, resolveDefsFuel (UnresolvedTemplates.expand 1 exactFactor hugeSystem) = some (defs, []) ∧ _
  cases hr : resolveDefsFuel (UnresolvedTemplates.expand 1 exactFactor hugeSystem) with
  | none => rw [hr] at h; simp at h
  | some p =>
    rw [hr] at h
    obtain ⟨defs, ds⟩ := p
    simp only [Option.any_some, Bool.and_eq_true, List.isEmpty_iff, decide_eq_true_eq] at h
    exact ⟨defs, by rw [h.1], h.2⟩
end
end Diman
