import Verif.Proofs.RoundTrip
/-!
# C27 — Serialising and deserialising a quantity returns the same quantity
`serializeStr` is the string the generated `Serialize` gives to the serializer, `deserializeStr` the generated `Deserialize` applied to a
string. `LawfulText.Valid` are the values of the float type; that core reads back the numbers it prints is part of `LawfulText`.
-/
set_option linter.unusedSectionVars false
namespace Diman
section
variable {E K M : Type} [Exponent E] [LawfulExponent E] [FieldOps E] [LawfulFieldOps E] [TotalFields E] [WrittenExponent E]
  [ShowExponent E] [LawfulShow E] [MagOps E M] [Prims K M] [TextPrims K M] [LawfulText E K M]

/-- **C27.** In an accepted unit system in which every base dimension has a base unit, a float quantity of any dimension with integer
exponents (in the range of `i32`) serialises to a string from which the same quantity is read back. (Missing for the full claim:
dimensions with fractional exponents or exponents beyond `i32`, for which it is false, see `C27_rational_refuted` and
`C27_large_exponent_refuted`; and systems without base units, see `C26_missing_base_unit_refuted`.) -/
theorem C27_round_trip_partial (factor : Prefix → M) (t : UnresolvedTemplates E M) (defs : Defs E M)
    (accepted : runUnitSystem factor t = some (defs, []))
    (literals : (UnresolvedTemplates.expand (MagOps.one E) factor t).LitExponents (WrittenExponent.Ok : E → Prop))
    (distinct : defs.baseDimensions.Nodup)
    (hasBase : ∀ d ∈ t.dimensions, d.rhs = .base () → ∃ v ∈ t.units, v.definition = .base d.name)
    (symbols : t.PlainSymbols)
    (finite : ∀ U ∈ defs.units, TextPrims.finite M (Prims.into .f64 U.mag : K) = true)
    (d : DimVal E) (fields : d.length = defs.baseDimensions.length)
    (integer : ∀ e ∈ d, ∃ i : Int, InI32 i ∧ e = Exponent.ofInt i)
    (s : Storage) (float : s.isFloat = true) (x : K) (valid : LawfulText.Valid E M s.base x) :
    ∃ text, serializeStr M defs s d [x] = some text ∧ deserializeStr M defs s d text = some (.ok [x]) := by
  obtain ⟨terms, h1, h2, us, h3, h4, h5, h6⟩ := printed_units (K := K) factor t defs accepted literals distinct hasBase symbols d fields
    integer (showRaw M s [x])
  refine ⟨_, by rw [serializeStr, if_pos float, h1], ?_⟩
  obtain ⟨o, ho⟩ := C28_compiles (K := K) factor t defs accepted literals distinct finite s d
    (showRaw M s [x] ++ (terms.map UnitTerm.text).flatten)
  rw [ho]
  have hshow : showRaw M s [x] = TextPrims.showF M s.base x := by simp [showRaw, float]
  have hw := words_number (LawfulText.show_plain (E := E) valid) terms fun u hu => ⟨(h2 u hu).1, fun c hc => ((h2 u hu).2 c hc).1⟩
  rw [hshow] at ho
  unfold deserializeStr at ho
  rw [bindM_eq_some] at ho
  obtain ⟨tbl, ht, ho⟩ := ho
  simp only [float, if_true, pure_eq_some] at ho
  rw [← ho]
  unfold visitStrFloat
  rw [splitWs_trim, splitWs_iff.2 hw]
  simp only [LawfulText.parse_show valid, Outcome.orError, Outcome.bind, h6 tbl ht, ifDimensionsMatch, if_true,
    LawfulText.ofF64_one (E := E), LawfulText.mul_one valid]
end

/-! ## Concrete runs -/
section
open Sample
attribute [local instance] Sample.exactMag Sample.ratPrims Sample.ratText Sample.ratLawful

-- The symbols of the sample system are plain words, and its quantities make the round trip.
example : sample.PlainSymbols := by
  intro v hv s hs
  have h : ∀ v ∈ sample.units, ∀ s ∈ v.symbol, s ≠ [] ∧ (s.all fun c => !isWs c && !reservedChars.contains c) = true := by decide +kernel
  obtain ⟨h1, h2⟩ := h v hv s hs
  refine ⟨h1, fun c hc => ?_⟩
  have := List.all_eq_true.1 h2 c hc
  simpa using this
example : ∃ defs, runUnitSystem exactFactor sample = some (defs, []) ∧
    (decide (serializeStr ℚ defs .f64 [1, -2, 0, 0] [(3 / 4 : ℚ)] = some (str!"3/4 m s^-2")) &&
      decide (deserializeStr ℚ defs .f64 [1, -2, 0, 0] (str!"3/4 m s^-2") = some (.ok [(3 / 4 : ℚ)]))) = true :=
  run_debug _ _ (by decide +kernel)

/-- **C27 fails beyond `i32`.** In an accepted system with a base unit, the dimension Length^(2^31) prints as `m^2147483648`, which the
deserialiser refuses: it reads exponents as `i32`. -/
theorem C27_large_exponent_refuted : ∃ (t : UnresolvedTemplates Int ℚ) (defs : Defs Int ℚ) (text : Str),
    runUnitSystem exactFactor t = some (defs, []) ∧ serializeStr ℚ defs .f64 [2 ^ 31] [(5 : ℚ)] = some text ∧
      deserializeStr ℚ defs .f64 [2 ^ 31] text = some (.error : Outcome (Raw ℚ)) := by
  let t : UnresolvedTemplates Int ℚ := {
    quantityTypes := [str!"Quantity"]
    dimensionTypes := [str!"Dimension"]
    dimensions := [⟨str!"Length", .base ()⟩]
    units := [baseUnit (str!"meters") (str!"m") (str!"Length") []]
    constants := [] }
  obtain ⟨defs, h1, h2⟩ := run_debug t (fun defs => decide (serializeStr ℚ defs .f64 [2 ^ 31] [(5 : ℚ)] = some (str!"5/1 m^2147483648") ∧
    deserializeStr ℚ defs .f64 [2 ^ 31] (str!"5/1 m^2147483648") = some (.error : Outcome (Raw ℚ)))) (by decide +kernel)
  rw [decide_eq_true_eq] at h2
  exact ⟨t, defs, _, h1, h2⟩

/-- Exact factors with rational exponents (roots of factors other than one are not needed here). -/
@[reducible] def ratioMag : MagOps Ratio ℚ where
  one := 1
  mul := (· * ·)
  div := (· / ·)
  pow x e := if x = 1 then 1 else x ^ e.num
  isOne x := decide (x = 1)

/-- **C27 fails for fractional exponents.** With rational exponents, in an accepted system with a base unit, a quantity of dimension
Length^(-1/2) serialises to `5 m^-1/2`, which the deserialiser refuses: it reads exponents as integers. -/
theorem C27_rational_refuted : letI := ratioMag
    ∃ (t : UnresolvedTemplates Ratio ℚ) (defs : Defs Ratio ℚ) (text : Str), runUnitSystem exactFactor t = some (defs, []) ∧
      serializeStr ℚ defs .f64 [⟨-1, 2⟩] [(5 : ℚ)] = some text ∧
      deserializeStr ℚ defs .f64 [⟨-1, 2⟩] text = some (.error : Outcome (Raw ℚ)) := by
  letI := ratioMag
  let t : UnresolvedTemplates Ratio ℚ := {
    quantityTypes := [str!"Quantity"]
    dimensionTypes := [str!"Dimension"]
    dimensions := [⟨str!"Length", .base ()⟩]
    units := [⟨str!"meters", some (str!"m"), [], [], none, .base (str!"Length")⟩]
    constants := [] }
  have h : (resolveDefsFuel (UnresolvedTemplates.expand 1 exactFactor t)).any (fun p => p.2.isEmpty &&
      decide (serializeStr ℚ p.1 .f64 [⟨-1, 2⟩] [(5 : ℚ)] = some (str!"5/1 m^-1/2") ∧
      deserializeStr ℚ p.1 .f64 [⟨-1, 2⟩] (str!"5/1 m^-1/2") = some (.error : Outcome (Raw ℚ)))) = true := by decide +kernel
  cases hr : resolveDefsFuel (UnresolvedTemplates.expand 1 exactFactor t) with
  | none => rw [hr] at h; simp at h
  | some p =>
    rw [hr] at h
    obtain ⟨defs, ds⟩ := p
    simp only [Option.any_some, Bool.and_eq_true, List.isEmpty_iff, decide_eq_true_eq] at h
    refine ⟨t, defs, str!"5/1 m^-1/2", ?_, h.2⟩
    unfold runUnitSystem
    rw [resolveDefs_eq_fuel]
    change resolveDefsFuel (UnresolvedTemplates.expand 1 exactFactor t) = _
    rw [hr, h.1]
end
end Diman
