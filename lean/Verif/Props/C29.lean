import Verif.Props.C28
/-!
# C29 — Bare numbers deserialise only to dimensionless quantities
`deserialize` is the generated `Deserialize` applied to a value of a self-describing format; `none` means that the generated code does not
compile.
-/
set_option linter.unusedSectionVars false
namespace Diman
open LawfulExponent

/-- `v` is a number without a unit; `x` is that number converted (`as`) to the float type `t`. -/
inductive BareNumber (M : Type) {K : Type} [TextPrims K M] (t : FloatTy) : SerdeValue K → K → Prop
  | i64 (i : Int) : BareNumber M t (.i64 i) (TextPrims.ofInt M t i)
  | u64 (n : Nat) : BareNumber M t (.u64 n) (TextPrims.ofInt M t n)
  | f64 (y : K) : BareNumber M t (.f64 y) (TextPrims.ofF64 M t y)

section
variable {E K M : Type} [Exponent E] [LawfulExponent E] [FieldOps E] [LawfulFieldOps E] [WrittenExponent E] [MagOps E M]
  [Prims K M] [TextPrims K M]

theorem dimensionless_iff {target : DimVal E} {n : Nat} (hc : target.Canonical) (hn : target.length = n) :
    target = DimVal.none n ↔ ∀ e ∈ target, val e = 0 := by
  constructor
  · rintro h e he
    rw [h] at he
    rw [List.eq_of_mem_replicate he, LawfulFieldOps.zero_val]
  · intro h
    refine DimVal.ext hc (DimVal.none_canonical n) ?_
    rw [DimVal.none_vec, ← hn]
    refine List.eq_replicate_iff.2 ⟨DimVal.vec_length _, fun q hq => ?_⟩
    obtain ⟨e, he, rfl⟩ := List.mem_map.1 hq
    exact h e he

/-- **C29.** Deserialising a bare number as a float quantity never panics; it succeeds if and only if every exponent of the target dimension
is zero, and then the result is that number. -/
theorem C29_number_iff (defs : Defs E M) (s : Storage) (float : s.isFloat = true) (target : DimVal E) (canonical : target.Canonical)
    (fields : target.length = defs.baseDimensions.length) (v : SerdeValue K) (x : K) (number : BareNumber M s.base v x)
    (o : Outcome (Raw K)) (compiled : deserialize M defs s target v = some o) :
    o ≠ .panic ∧ ∀ r, o = .ok r ↔ (∀ e ∈ target, val e = 0) ∧ r = [x] := by
  have key : o = if target = DimVal.none defs.baseDimensions.length then .ok [x] else .error := by
    cases number <;>
    · unfold deserialize at compiled
      rw [bindM_eq_some] at compiled
      obtain ⟨_, _, compiled⟩ := compiled
      simp only [float, if_true, pure_eq_some] at compiled
      exact compiled.symm
  rw [← dimensionless_iff canonical fields]
  subst key
  split <;> rename_i h
  · exact ⟨by simp, fun r => ⟨fun e => ⟨h, by injection e with e; exact e.symm⟩, fun e => by rw [e.2]⟩⟩
  · exact ⟨by simp, fun r => ⟨fun e => (by cases e), fun e => absurd e.1 h⟩⟩

/-- **C29, vectors.** A bare number is never accepted for a vector quantity. -/
theorem C29_vector (defs : Defs E M) (s : Storage) (vector : s.isFloat = false) (target : DimVal E) (v : SerdeValue K) (x : K)
    (number : BareNumber M s.base v x) (o : Outcome (Raw K)) (compiled : deserialize M defs s target v = some o) : o = .error := by
  cases number <;>
  · unfold deserialize at compiled
    rw [bindM_eq_some] at compiled
    obtain ⟨_, _, compiled⟩ := compiled
    simp only [vector, Bool.false_eq_true, if_false, pure_eq_some] at compiled
    exact compiled.symm

/-- **C29, strings.** The same holds for a string that consists of a number only: it is accepted if and only if the target is
dimensionless. -/
theorem C29_string_iff [LawfulText E K M] (factor : Prefix → M) (t : UnresolvedTemplates E M) (defs : Defs E M)
    (accepted : runUnitSystem factor t = some (defs, []))
    (literals : (UnresolvedTemplates.expand (MagOps.one E) factor t).LitExponents (WrittenExponent.Ok : E → Prop))
    (s : Storage) (float : s.isFloat = true) (target : DimVal E) (canonical : target.Canonical)
    (fields : target.length = defs.baseDimensions.length)
    (text num : Str) (single : Words text [num]) (x : K) (parsed : TextPrims.parseF M s.base num = some x)
    (valid : LawfulText.Valid E M s.base x) (o : Outcome (Raw K)) (compiled : deserialize M defs s target (.str text) = some o) (r : Raw K) :
    o = .ok r ↔ (∀ e ∈ target, val e = 0) ∧ r = [x] := by
  have hn : o ≠ .panic := by
    intro hp
    change deserializeStr M defs s target text = some o at compiled
    unfold deserializeStr at compiled
    rw [bindM_eq_some] at compiled
    obtain ⟨tbl, ht, compiled⟩ := compiled
    simp only [float, if_true, pure_eq_some] at compiled
    unfold visitStrFloat at compiled
    rw [splitWs_trim, splitWs_iff.2 single] at compiled
    simp only [parsed, Outcome.orError, Outcome.bind, readUnits, ifDimensionsMatch] at compiled
    subst compiled
    split at hp <;> cases hp
  rw [C28_float_iff factor t defs accepted literals s float target canonical text o compiled hn r]
  have hz : HasDimension defs ([] : UnitPowers E M) target ↔ ∀ e ∈ target, val e = 0 := by
    rw [← dimensionless_iff canonical fields]
    unfold HasDimension
    constructor
    · intro h
      refine DimVal.ext canonical (DimVal.none_canonical _) ?_
      rw [h, none_vec_map]; rfl
    · intro h
      rw [h, none_vec_map]; rfl
  have hval : Prims.mul M s.base x (TextPrims.ofF64 M s.base (UnitPowers.factor K ([] : UnitPowers E M))) = x := by
    show Prims.mul M s.base x (TextPrims.ofF64 M s.base (Prims.one M .f64)) = x
    rw [LawfulText.ofF64_one (E := E), LawfulText.mul_one valid]
  rw [← hz]
  constructor
  · rintro ⟨num', ws, hw, y, hy, us, h1, h2, rfl⟩
    have e := (splitWs_iff.2 hw).symm.trans (splitWs_iff.2 single)
    simp only [List.cons.injEq] at e
    obtain ⟨rfl, rfl⟩ := e
    cases h1
    rw [parsed, Option.some.injEq] at hy
    subst hy
    exact ⟨h2, by rw [hval]⟩
  · rintro ⟨h, rfl⟩
    exact ⟨num, [], single, x, parsed, [], .nil, h, by rw [hval]⟩
end

/-! ## Exact numbers -/
section
variable [IdealFns] [IdealText]
attribute [local instance] realMag

/-- **C29, the number.** On exact numbers an accepted integer is that integer. -/
theorem C29_exact (defs : Defs Int ℝ) (s : Storage) (float : s.isFloat = true) (target : DimVal Int)
    (fields : target.length = defs.baseDimensions.length) (i : Int) (r : Raw ℝ) (run : deserialize ℝ defs s target (.i64 i) = some (.ok r)) :
    r = [(i : ℝ)] :=
  (((C29_number_iff defs s float target (fun _ _ => trivial) fields _ _ (.i64 i) _ run).2 r).1 rfl).2
end

/-! ## Concrete runs -/
section
open Sample
attribute [local instance] Sample.exactMag Sample.ratPrims Sample.ratText
-- 5 is accepted as a dimensionless quantity and refused as a length.
example : ∃ defs, runUnitSystem exactFactor sample = some (defs, []) ∧
    (decide (deserialize ℚ defs .f64 [0, 0, 0, 0] (.i64 5) = some (.ok [(5 : ℚ)])) &&
      decide (deserialize ℚ defs .f64 [1, 0, 0, 0] (.u64 5) = some (.error : Outcome (Raw ℚ)))) = true := by
  obtain ⟨defs, hd⟩ := sample_accepted
  refine ⟨defs, hd, ?_⟩
  have h : (resolveDefsFuel (UnresolvedTemplates.expand 1 exactFactor sample)).any (fun p =>
    (decide (deserialize ℚ p.1 .f64 [0, 0, 0, 0] (.i64 5) = some (.ok [(5 : ℚ)])) &&
      decide (deserialize ℚ p.1 .f64 [1, 0, 0, 0] (.u64 5) = some (.error : Outcome (Raw ℚ))))) = true := by decide +kernel
  have hr : resolveDefs (UnresolvedTemplates.expand 1 exactFactor sample) = some (defs, []) := hd
  rw [resolveDefs_eq_fuel] at hr
  rw [hr] at h
  simpa using h
end
end Diman
