import Verif.Props.C22
/-!
# C24 — a quantity can only be read out in a unit of its own dimension
The code does not have this property: `value_in` takes anything convertible to a conversion factor, and units of every dimension are.
-/
set_option linter.unusedSectionVars false
set_option linter.unusedSimpArgs false
namespace Diman
variable {E : Type} [FieldOps E] [DecidableEq E]

/-- What `value_in` requires: a quantity stored as a float, and a unit (of either kind); it returns a bare float of that type. Missing for
the full property: that the dimension `d'` of the unit is the dimension `d` of the quantity, see `C24_any_dimension_accepted`. -/
theorem C24_value_in_partial (n : Nat) (tys : List (Ty E)) (t : Ty E) :
    (Fn.valueIn).sig n tys = some t ↔
      ∃ (s : Storage) (d d' : DimVal E) (k : UnitKind), s.isFloat = true ∧ tys = [.quantity s d, k.ty d'] ∧ t = .bare s := by
  constructor
  · intro h
    simp only [Fn.sig] at h
    split at h <;> first | (cases h; done) | skip
    all_goals
      split at h <;> [skip; cases h]
      rename_i hs
      injection h with h
    · exact ⟨_, _, _, .const, hs, rfl, h.symm⟩
    · exact ⟨_, _, _, .runtime, hs, rfl, h.symm⟩
  · rintro ⟨s, d, d', k, hs, rfl, rfl⟩
    cases k <;> simp [Fn.sig, UnitKind.ty, hs]

/-- The full property is false: `value_in` accepts every pair of dimensions, equal or not, and divides the stored number by the factor. -/
theorem C24_any_dimension_accepted {K M : Type} [Prims K M] (n : Nat) (k : UnitKind) {s : Storage} (hs : s.isFloat = true) (d d' : DimVal E)
    (x : K) (m : M) :
    (Fn.valueIn).sig n [.quantity s d, k.ty d'] = some (.bare s) ∧
    (Fn.valueIn).run n [.quantity s d, k.ty d'] [.quantity [x], k.val m] =
      some (.bare [Prims.div M s.base x (Prims.into s.base m)] : Val K M) :=
  ⟨(C24_value_in_partial n _ _).2 ⟨s, d, d', k, hs, rfl, rfl⟩, valueIn_run n k hs d d' m [x]⟩

/-- The negation of the property, as a statement: it is not the case that reading out requires equal dimensions. -/
theorem C24_refuted : ¬ ∀ (n : Nat) (s : Storage) (d d' : DimVal Int) (t : Ty Int),
    (Fn.valueIn).sig n [.quantity s d, .unit d'] = some t → d = d' := by
  intro h
  exact absurd (h 2 .f64 [1, 0] [0, 1] (.bare .f64) (by decide +kernel)) (by decide)

/-- What saves careful users: when the dimensions do agree, the result in exact arithmetic is the number of units in the quantity. -/
theorem C24_same_dimension_exact [IdealFns] (n : Nat) (k : UnitKind) {s : Storage} (hs : s.isFloat = true) (d : DimVal E) (x m : ℝ) (hm : m ≠ 0) :
    ∃ y, (Fn.valueIn).run n [.quantity s d, k.ty d] [.quantity [x], (k.val m : Val ℝ ℝ)] = some (.bare [y]) ∧ y * m = x :=
  ⟨x / m, valueIn_run n k hs d d m [x], div_mul_cancel₀ x hm⟩

/-- Non-vacuity: 5 metres "in seconds" type-checks and gives 5. -/
example [IdealFns] : (Fn.valueIn).run 2 [.quantity .f64 ([1, 0] : DimVal Int), .unit [0, 1]] [.quantity [(5 : ℝ)], (.unit (1 : ℝ) : Val ℝ ℝ)] = some (.bare [5]) := by
  have := (C24_any_dimension_accepted (K := ℝ) (M := ℝ) 2 .const (s := .f64) rfl ([1, 0] : DimVal Int) [0, 1] 5 1).2
  simpa [UnitKind.ty, UnitKind.val, Prims.div, Prims.into] using this

end Diman
