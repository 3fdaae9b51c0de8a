import Verif.Proofs.Operators
/-!
# C33 — only dimensionless quantities convert to and from bare numbers
Quantifies over all generated functions (`Fn`), all argument type lists, all dimensions, both exponent types.
-/
set_option linter.unusedSectionVars false
set_option linter.unusedSimpArgs false
namespace Diman
variable {E : Type} [FieldOps E] [DecidableEq E]

/-- The generated functions that are named `…_unchecked…`. -/
def Fn.isUnchecked : Fn E → Bool
  | .valueUnchecked | .valueUncheckedRef | .newUnchecked _ => true
  | _ => false

/-- From quantity to number: a generated function that returns a bare number is `value_in`, is called `…_unchecked`, or takes exactly
one argument, a dimensionless quantity. -/
theorem C33_quantity_to_number {n : Nat} {f : Fn E} {tys : List (Ty E)} {s : Storage} (h : f.sig n tys = some (.bare s))
    (hin : f ≠ .valueIn) (hu : f.isUnchecked = false) : tys = [.quantity s (DimVal.none n)] := by
  cases f <;> simp only [Fn.sig] at h <;> (try simp [Fn.isUnchecked] at hu) <;> (try exact absurd rfl hin) <;> split at h <;>
    simp_all <;> grind

/-- From number to quantity: a generated function taking only bare numbers (at least one) gives a dimensionless quantity, unless it is
called `…_unchecked`. -/
theorem C33_number_to_quantity {n : Nat} {f : Fn E} {tys : List (Ty E)} {s : Storage} {d : DimVal E}
    (h : f.sig n tys = some (.quantity s d)) (hne : tys ≠ []) (hb : ∀ t ∈ tys, ∃ s, t = .bare s) (hu : f.isUnchecked = false) :
    d = DimVal.none n := by
  cases f <;> simp only [Fn.sig] at h <;> (try simp [Fn.isUnchecked] at hu) <;> (try split at h) <;> simp_all
  case sum s' d' hall =>
    obtain ⟨t, ts, rfl⟩ := List.exists_cons_of_ne_nil hne
    obtain ⟨s'', rfl⟩ := hb t (by simp)
    simp at hall

/-- Functions mixing quantities with bare numbers (`min`, `max`, `clamp`) do so only for dimensionless quantities. -/
theorem C33_mixed_arguments {n : Nat} {f : Fn E} {tys : List (Ty E)} {t : Ty E} (h : f.sig n tys = some t)
    {s s' : Storage} {d : DimVal E} (hq : .quantity s d ∈ tys) (hb : .bare s' ∈ tys) : d = DimVal.none n := by
  cases f <;> simp only [Fn.sig] at h <;> (try split at h) <;> simp_all [intoQuantityOk] <;>
    grind [intoQuantityOk]

omit [DecidableEq E] in
/-- Operators mixing a quantity with a bare number: addition, subtraction, compound addition and comparison exist only for
dimensionless quantities (multiplication and division are covered by C20); no operator on a quantity returns a bare number. -/
theorem C33_operators {ss : List Storage} {n : Nat} {t : Trait} {l r : OpTy E} {out : OpOut E} (h : OpTyped ss n t l r out) :
    (∀ s s' d, (l.ty = .quantity s d ∧ r.ty = .bare s') ∨ (l.ty = .bare s' ∧ r.ty = .quantity s d) →
      t ≠ .mul → t ≠ .div → t ≠ .mulAssign → t ≠ .divAssign → d = DimVal.none n) ∧
    (∀ s s' d, l.ty = .bare s' → r.ty = .quantity s d → t = .mulAssign ∨ t = .divAssign → d = DimVal.none n) ∧
    (∀ s, out ≠ .value (.bare s)) ∧
    ∃ s d, l.ty = .quantity s d ∨ r.ty = .quantity s d := by
  obtain ⟨o, ho, rfl, i, rfl, hty⟩ := h
  obtain ⟨sl, sr, s, -, -, -, hcase⟩ := typed_inv ho hty
  rcases hcase with ⟨dl, dr, d, -, -, hl, hr, hn, rfl⟩ | ⟨d, -, -, hl, hr, hn⟩ | ⟨d, -, -, hl, hr, hn, rfl⟩ | ⟨d, -, -, hl, hr, hn, rfl⟩ |
    ⟨d, d', -, -, hl, hr, hn, rfl⟩ | ⟨⟨-, -, hl, hr⟩ | ⟨-, -, hl, hr⟩, hn⟩ <;>
    (refine ⟨?_, ?_, ?_, ?_⟩ <;> simp [hl, hr] <;> grind)

/-- The transcendental and rounding functions exist only for dimensionless floats, and give a dimensionless quantity. -/
theorem C33_transcendental {n : Nat} {f : FloatFn} {tys : List (Ty E)} {t : Ty E} (h : (Fn.dimensionless f).sig n tys = some t) :
    ∃ s, s.isFloat = true ∧ tys = [.quantity s (DimVal.none n)] ∧ t = .quantity s (DimVal.none n) := by
  simp only [Fn.sig] at h
  split at h
  · split at h
    · simp_all
      exact ⟨_, by tauto, h.symm⟩
    · cases h
  · cases h

/-- `value`, `value_ref` and dereferencing are available exactly for dimensionless quantities; `From` makes exactly those. -/
theorem C33_value_iff (n : Nat) (s : Storage) (d : DimVal E) :
    (((Fn.value).sig n [.quantity s d]).isSome ↔ d = DimVal.none n) ∧
    (((Fn.valueRef).sig n [.quantity s d]).isSome ↔ d = DimVal.none n) ∧
    (((Fn.deref).sig n [.quantity s d]).isSome ↔ d = DimVal.none n) ∧
    (∀ t, (Fn.from).sig n [.bare s] = some t ↔ t = (.quantity s (DimVal.none n) : Ty E)) := by
  simp only [Fn.sig]
  by_cases h : d = DimVal.none n <;> simp [h, eq_comm]

/-- Non-vacuity. -/
example : (Fn.value).sig 2 [.quantity .f64 [(0 : Int), 0]] = some (.bare .f64) ∧ (Fn.value).sig 2 [.quantity .f64 [(1 : Int), 0]] = none ∧
    (Fn.dimensionless .sin).sig 2 [.quantity .f64 [(0 : Int), 0]] = some (.quantity .f64 [0, 0]) ∧
    (Fn.min).sig 2 [.quantity .f64 [(0 : Int), 0], .bare .f64] = some (.quantity .f64 [0, 0]) := by decide

end Diman
