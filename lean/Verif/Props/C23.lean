import Verif.Props.C20
import Verif.Props.C22
/-!
# C23 — composite units behave as the product or quotient of their parts
Values in exact arithmetic (`Spec/Ideal.lean`), dimensions for both exponent types. `Fn.unitMul`, `Fn.unitDiv`: `*` and `/` with a unit on at
least one side. Products are right in all cases. Quotients are wrong in two families of implementations, which the theorems called
`_partial` exclude and the theorems called `_wrong` describe:
`Unit / Quantity` (also with `RuntimeUnit`) computes the reciprocal of the quotient; `number / Unit` is given the dimension of the unit
instead of its inverse.
-/
set_option linter.unusedSectionVars false
set_option linter.unusedSimpArgs false
namespace Diman
open LawfulExponent

/-- The number (or vector) a value stands for in base units: the stored value, or the conversion factor. -/
def Val.nums {K : Type} : Val K K → List K
  | .quantity r => r
  | .bare r => r
  | .unit m => [m]
  | .runtimeUnit m => [m]
  | _ => []

/-- Is it a unit type? -/
def Ty.isUnit {E : Type} : Ty E → Bool
  | .unit _ => true
  | .runtimeUnit _ => true
  | _ => false

/-- Is it a quantity type? -/
def Ty.isQuantity {E : Type} : Ty E → Bool
  | .quantity _ _ => true
  | _ => false

/-- Is it a bare storage type? -/
def Ty.isBare {E : Type} : Ty E → Bool
  | .bare _ => true
  | _ => false

section
variable {E : Type} [FieldOps E] [DecidableEq E]

/-- The possible operand types of `*` and `/` with units. -/
inductive UnitOperands : Ty E → Ty E → Prop where
  | uu (d d') : UnitOperands (.unit d) (.unit d')
  | uq (k : UnitKind) (d s d') : Storage.isFloat s = true → UnitOperands (k.ty d) (.quantity s d')
  | qu (k : UnitKind) (d s d') : Storage.isFloat s = true → UnitOperands (.quantity s d) (k.ty d')
  | bu (k : UnitKind) (s d) : UnitOperands (.bare s) (k.ty d)
  | ub (k : UnitKind) (s d) : UnitOperands (k.ty d) (.bare s)

theorem unit_operands {n : Nat} {f : Fn E} (hf : f = .unitMul ∨ f = .unitDiv) {t₁ t₂ t : Ty E} (h : f.sig n [t₁, t₂] = some t) :
    UnitOperands t₁ t₂ := by
  rcases hf with rfl | rfl <;> simp only [Fn.sig] at h <;> split at h <;> first | (cases h; done) | skip
  all_goals rename_i heq; injection heq with h1 h2; injection h2 with h2 _; subst h1 h2
  all_goals first
    | exact .uu _ _
    | (split at h <;> [skip; cases h]
       rename_i hs
       first | exact .uq .const _ _ _ hs | exact .uq .runtime _ _ _ hs | exact .qu .const _ _ _ hs | exact .qu .runtime _ _ _ hs)
    | exact .bu .const _ _ | exact .bu .runtime _ _ | exact .ub .const _ _ | exact .ub .runtime _ _

end

section
variable {E : Type} [FieldOps E] [DecidableEq E] [IdealFns]

theorem hasTy_unitKind {k : UnitKind} {d : DimVal E} {v : Val ℝ ℝ} (h : v.HasTy (k.ty d)) : ∃ m, v = k.val m := by
  cases k <;> cases v <;> simp [Val.HasTy, UnitKind.ty] at h <;> exact ⟨_, rfl⟩

theorem hasTy_quantity1 {s : Storage} {d : DimVal E} {v : Val ℝ ℝ} (h : v.HasTy (.quantity s d)) : ∃ r, v = .quantity r ∧ r.length = s.numDims := by
  cases v <;> simp [Val.HasTy] at h; exact ⟨_, rfl, h⟩

theorem hasTy_bare1 {s : Storage} {v : Val ℝ ℝ} (h : v.HasTy (.bare s : Ty E)) : ∃ r, v = .bare r ∧ r.length = s.numDims := by
  cases v <;> simp [Val.HasTy] at h; exact ⟨_, rfl, h⟩

/-- Products with units, values: the result is the product of the two numbers (component by component if one of them is a vector). -/
theorem C23_mul_value {n : Nat} {t₁ t₂ t : Ty E} (h : (Fn.unitMul).sig n [t₁, t₂] = some t) {a b : Val ℝ ℝ} (ha : a.HasTy t₁) (hb : b.HasTy t₂) :
    ∃ v, (Fn.unitMul).run n [t₁, t₂] [a, b] = some v ∧
      (∀ x, a.nums = [x] → v.nums = b.nums.map (x * ·)) ∧ (∀ y, b.nums = [y] → v.nums = a.nums.map (· * y)) := by
  have hu := unit_operands (.inl rfl) h
  simp only [Fn.run, h, Option.isNone_some, Bool.false_eq_true, if_false]
  cases hu with
  | uu d d' =>
    obtain ⟨m, rfl⟩ := hasTy_unitKind (k := .const) ha
    obtain ⟨m', rfl⟩ := hasTy_unitKind (k := .const) hb
    refine ⟨_, rfl, ?_, ?_⟩ <;> intro x hx <;> simp_all [Val.nums, UnitKind.val, Prims.magMul]
  | uq k d s d' hs =>
    obtain ⟨m, rfl⟩ := hasTy_unitKind ha
    obtain ⟨r, rfl, hr⟩ := hasTy_quantity1 hb
    cases k <;> refine ⟨_, rfl, ?_, ?_⟩ <;> intro x hx <;> simp_all [Val.nums, UnitKind.val, Prims.mul, Prims.into, mul_comm]
  | qu k d s d' hs =>
    obtain ⟨m, rfl⟩ := hasTy_unitKind hb
    obtain ⟨r, rfl, hr⟩ := hasTy_quantity1 ha
    cases k <;> refine ⟨_, rfl, ?_, ?_⟩ <;> intro x hx <;> simp_all [Val.nums, UnitKind.val, Prims.mul, Prims.into, mul_comm]
  | bu k s d =>
    obtain ⟨m, rfl⟩ := hasTy_unitKind hb
    obtain ⟨r, rfl, hr⟩ := hasTy_bare1 ha
    cases k <;> refine ⟨_, rfl, ?_, ?_⟩ <;> intro x hx <;> simp_all [Val.nums, UnitKind.val, Prims.mul, Prims.into, mul_comm]
  | ub k s d =>
    obtain ⟨m, rfl⟩ := hasTy_unitKind ha
    obtain ⟨r, rfl, hr⟩ := hasTy_bare1 hb
    cases k <;> refine ⟨_, rfl, ?_, ?_⟩ <;> intro x hx <;> simp_all [Val.nums, UnitKind.val, Prims.mul, Prims.into, mul_comm]

/-- Quotients with units, values: the result is the quotient of the two numbers. Missing for the full property: a unit divided by a
quantity, see `C23_unit_div_quantity_wrong`. -/
theorem C23_div_value_partial {n : Nat} {t₁ t₂ t : Ty E} (h : (Fn.unitDiv).sig n [t₁, t₂] = some t)
    (hex : ¬ (t₁.isUnit = true ∧ t₂.isQuantity = true)) {a b : Val ℝ ℝ} (ha : a.HasTy t₁) (hb : b.HasTy t₂) :
    ∃ v, (Fn.unitDiv).run n [t₁, t₂] [a, b] = some v ∧
      (∀ x, a.nums = [x] → v.nums = b.nums.map (x / ·)) ∧ (∀ y, b.nums = [y] → v.nums = a.nums.map (· / y)) := by
  have hu := unit_operands (.inr rfl) h
  simp only [Fn.run, h, Option.isNone_some, Bool.false_eq_true, if_false]
  cases hu with
  | uu d d' =>
    obtain ⟨m, rfl⟩ := hasTy_unitKind (k := .const) ha
    obtain ⟨m', rfl⟩ := hasTy_unitKind (k := .const) hb
    refine ⟨_, rfl, ?_, ?_⟩ <;> intro x hx <;> simp_all [Val.nums, UnitKind.val, Prims.magDiv]
  | uq k d s d' hs => cases k <;> simp [UnitKind.ty, Ty.isUnit, Ty.isQuantity] at hex
  | qu k d s d' hs =>
    obtain ⟨m, rfl⟩ := hasTy_unitKind hb
    obtain ⟨r, rfl, hr⟩ := hasTy_quantity1 ha
    cases k <;> refine ⟨_, rfl, ?_, ?_⟩ <;> intro x hx <;> simp_all [Val.nums, UnitKind.val, Prims.div, Prims.into]
  | bu k s d =>
    obtain ⟨m, rfl⟩ := hasTy_unitKind hb
    obtain ⟨r, rfl, hr⟩ := hasTy_bare1 ha
    cases k <;> refine ⟨_, rfl, ?_, ?_⟩ <;> intro x hx <;> simp_all [Val.nums, UnitKind.val, Prims.div, Prims.into]
  | ub k s d =>
    obtain ⟨m, rfl⟩ := hasTy_unitKind ha
    obtain ⟨r, rfl, hr⟩ := hasTy_bare1 hb
    cases k <;> refine ⟨_, rfl, ?_, ?_⟩ <;> intro x hx <;> simp_all [Val.nums, UnitKind.val, Prims.div, Prims.into]

/-- The full value claim for quotients is false: a unit with factor `m` divided by a quantity with stored value `x` is computed as
`x / m`, for all `m` and `x` — the quotient only if `m = x` or `m = -x` (or one of them is zero). -/
theorem C23_unit_div_quantity_wrong (n : Nat) (k : UnitKind) {s : Storage} (hs : s.isFloat = true) {d d' p : DimVal E} (hp : DimVal.sub d d' = some p)
    (m x : ℝ) :
    ∃ v, (Fn.unitDiv).run n [k.ty d, .quantity s d'] [k.val m, (.quantity [x] : Val ℝ ℝ)] = some (.quantity [v]) ∧ v = x / m ∧
      (m ≠ 0 → x ≠ 0 → (v = m / x ↔ m = x ∨ m = -x)) := by
  refine ⟨x / m, ?_, rfl, fun hm hx => ?_⟩
  · cases k <;> simp [Fn.run, Fn.sig, UnitKind.ty, UnitKind.val, hs, hp, Fn.body, Prims.div, Prims.into]
  · rw [div_eq_div_iff hm hx, ← sq, ← sq, eq_comm, sq_eq_sq_iff_eq_or_eq_neg]

/-- Composite units are interchangeable with their parts: `x * (u₁ * u₂)` is `(x * u₁) * u₂`, and `x * (u₁ / u₂)` is `(x * u₁) / u₂`. -/
theorem C23_composite (n : Nat) {s : Storage} (hs : s.isFloat = true) {d₁ d₂ p q : DimVal E} (hp : DimVal.add d₁ d₂ = some p)
    (hq : DimVal.sub d₁ d₂ = some q) (m₁ m₂ x : ℝ) :
    ((Fn.unitMul).run n [.unit d₁, .unit d₂] [.unit m₁, (.unit m₂ : Val ℝ ℝ)] >>= fun u => (Fn.unitMul).run n [.bare s, .runtimeUnit p] [.bare [x], u]) =
      ((Fn.unitMul).run n [.bare s, .unit d₁] [.bare [x], (.unit m₁ : Val ℝ ℝ)] >>= fun y => (Fn.unitMul).run n [.quantity s d₁, .unit d₂] [y, .unit m₂]) ∧
    ((Fn.unitDiv).run n [.unit d₁, .unit d₂] [.unit m₁, (.unit m₂ : Val ℝ ℝ)] >>= fun u => (Fn.unitMul).run n [.bare s, .runtimeUnit q] [.bare [x], u]) =
      ((Fn.unitMul).run n [.bare s, .unit d₁] [.bare [x], (.unit m₁ : Val ℝ ℝ)] >>= fun y => (Fn.unitDiv).run n [.quantity s d₁, .unit d₂] [y, .unit m₂]) := by
  constructor
  · simp [Fn.run, Fn.sig, hs, hp, Fn.body, Prims.mul, Prims.into, Prims.magMul, mul_assoc]
  · simp [Fn.run, Fn.sig, hs, hq, Fn.body, Prims.mul, Prims.into, Prims.magDiv, Prims.div, mul_div_assoc]
end

section
variable {E : Type} [Exponent E] [LawfulExponent E] [FieldOps E] [LawfulFieldOps E] [DecidableEq E]

theorem UnitKind.dim_ty (k : UnitKind) (n : Nat) (d : DimVal E) : (k.ty d).dim n = some d := by cases k <;> rfl

theorem vec_none_add {n : Nat} {d : DimVal E} (hl : d.length = n) :
    List.zipWith (· + ·) (DimVal.none n : DimVal E).vec d.vec = d.vec ∧ List.zipWith (· + ·) d.vec (DimVal.none n : DimVal E).vec = d.vec := by
  rw [DimVal.none_vec]
  exact ⟨zipWith_zero_left (by rw [DimVal.vec_length, hl]), zipWith_zero_right (by rw [DimVal.vec_length, hl])⟩

/-- Products with units, dimensions: the exponents add. -/
theorem C23_mul_dimension {n : Nat} {t₁ t₂ t : Ty E} (h₁ : t₁.WF n) (h₂ : t₂.WF n) (h : (Fn.unitMul).sig n [t₁, t₂] = some t) :
    ∃ d₁ d₂ d, t₁.dim n = some d₁ ∧ t₂.dim n = some d₂ ∧ t.dim n = some d ∧ d.vec = List.zipWith (· + ·) d₁.vec d₂.vec := by
  have hu := unit_operands (.inl rfl) h
  cases hu with
  | uu d d' =>
    simp only [Fn.sig, Option.map_eq_some_iff] at h
    obtain ⟨p, hp, rfl⟩ := h
    exact ⟨d, d', p, rfl, rfl, rfl, (DimVal.add_spec (h₁ d rfl).2 (h₂ d' rfl).2 hp).2.1⟩
  | uq k d s d' hs =>
    have h₁ := h₁ d (k.dim_ty n d)
    have h₂ := h₂ d' rfl
    have : ∃ p, DimVal.add d d' = some p ∧ t = .quantity s p := by
      cases k <;> simp only [UnitKind.ty, Fn.sig, hs, if_true, Option.map_eq_some_iff] at h <;> (obtain ⟨p, hp, rfl⟩ := h; exact ⟨p, hp, rfl⟩)
    obtain ⟨p, hp, rfl⟩ := this
    exact ⟨d, d', p, k.dim_ty n d, rfl, rfl, (DimVal.add_spec h₁.2 h₂.2 hp).2.1⟩
  | qu k d s d' hs =>
    have h₁ := h₁ d rfl
    have h₂ := h₂ d' (k.dim_ty n d')
    have : ∃ p, DimVal.add d d' = some p ∧ t = .quantity s p := by
      cases k <;> simp only [UnitKind.ty, Fn.sig, hs, if_true, Option.map_eq_some_iff] at h <;> (obtain ⟨p, hp, rfl⟩ := h; exact ⟨p, hp, rfl⟩)
    obtain ⟨p, hp, rfl⟩ := this
    exact ⟨d, d', p, rfl, k.dim_ty n d', rfl, (DimVal.add_spec h₁.2 h₂.2 hp).2.1⟩
  | bu k s d =>
    have h₂ := h₂ d (k.dim_ty n d)
    have : t = .quantity s d := by cases k <;> (simp only [UnitKind.ty, Fn.sig, Option.some.injEq] at h; exact h.symm)
    subst this
    exact ⟨_, d, d, rfl, k.dim_ty n d, rfl, (vec_none_add h₂.1).1.symm⟩
  | ub k s d =>
    have h₁ := h₁ d (k.dim_ty n d)
    have : t = .quantity s d := by cases k <;> (simp only [UnitKind.ty, Fn.sig, Option.some.injEq] at h; exact h.symm)
    subst this
    exact ⟨d, _, d, k.dim_ty n d, rfl, rfl, (vec_none_add h₁.1).2.symm⟩

/-- Quotients with units, dimensions: the exponents are subtracted. Missing for the full property: a bare number divided by a unit, see
`C23_number_div_unit_wrong`. -/
theorem C23_div_dimension_partial {n : Nat} {t₁ t₂ t : Ty E} (h₁ : t₁.WF n) (h₂ : t₂.WF n) (h : (Fn.unitDiv).sig n [t₁, t₂] = some t)
    (hex : t₁.isBare = false) :
    ∃ d₁ d₂ d, t₁.dim n = some d₁ ∧ t₂.dim n = some d₂ ∧ t.dim n = some d ∧ d.vec = List.zipWith (· - ·) d₁.vec d₂.vec := by
  have hu := unit_operands (.inr rfl) h
  cases hu with
  | uu d d' =>
    simp only [Fn.sig, Option.map_eq_some_iff] at h
    obtain ⟨p, hp, rfl⟩ := h
    exact ⟨d, d', p, rfl, rfl, rfl, (DimVal.sub_spec (h₁ d rfl).2 (h₂ d' rfl).2 hp).2.1⟩
  | uq k d s d' hs =>
    have h₁ := h₁ d (k.dim_ty n d)
    have h₂ := h₂ d' rfl
    have : ∃ p, DimVal.sub d d' = some p ∧ t = .quantity s p := by
      cases k <;> simp only [UnitKind.ty, Fn.sig, hs, if_true, Option.map_eq_some_iff] at h <;> (obtain ⟨p, hp, rfl⟩ := h; exact ⟨p, hp, rfl⟩)
    obtain ⟨p, hp, rfl⟩ := this
    exact ⟨d, d', p, k.dim_ty n d, rfl, rfl, (DimVal.sub_spec h₁.2 h₂.2 hp).2.1⟩
  | qu k d s d' hs =>
    have h₁ := h₁ d rfl
    have h₂ := h₂ d' (k.dim_ty n d')
    have : ∃ p, DimVal.sub d d' = some p ∧ t = .quantity s p := by
      cases k <;> simp only [UnitKind.ty, Fn.sig, hs, if_true, Option.map_eq_some_iff] at h <;> (obtain ⟨p, hp, rfl⟩ := h; exact ⟨p, hp, rfl⟩)
    obtain ⟨p, hp, rfl⟩ := this
    exact ⟨d, d', p, rfl, k.dim_ty n d', rfl, (DimVal.sub_spec h₁.2 h₂.2 hp).2.1⟩
  | bu k s d => simp [Ty.isBare] at hex
  | ub k s d =>
    have h₁ := h₁ d (k.dim_ty n d)
    have : t = .quantity s d := by cases k <;> (simp only [UnitKind.ty, Fn.sig, Option.some.injEq] at h; exact h.symm)
    subst this
    refine ⟨d, _, d, k.dim_ty n d, rfl, rfl, ?_⟩
    rw [DimVal.none_vec, ← h₁.1, ← DimVal.vec_length]
    generalize d.vec = v
    induction v with
    | nil => rfl
    | cons a v ih => simp only [List.length_cons, List.replicate_succ, List.zipWith_cons_cons, sub_zero, ← ih]

/-- The full dimension claim for quotients is false: a bare number divided by a unit of dimension `D` has dimension `D`, for every `D` —
the quotient dimension `D⁻¹` only if `D` is dimensionless. -/
theorem C23_number_div_unit_wrong (n : Nat) (k : UnitKind) (s : Storage) {d : DimVal E} (hd : d.Canonical) (hl : d.length = n) :
    (Fn.unitDiv).sig n [.bare s, k.ty d] = some (.quantity s d) ∧
    (d.vec = List.zipWith (· - ·) (DimVal.none n : DimVal E).vec d.vec ↔ d = DimVal.none n) := by
  refine ⟨by cases k <;> rfl, ?_⟩
  have key : ∀ v : List ℚ, v = List.zipWith (· - ·) (List.replicate v.length 0) v ↔ v = List.replicate v.length 0 := by
    intro v
    induction v with
    | nil => simp
    | cons a v ih =>
      simp only [List.length_cons, List.replicate_succ, List.zipWith_cons_cons, List.cons.injEq, zero_sub]
      rw [← ih, self_eq_neg]
  have hl' : n = d.vec.length := by rw [DimVal.vec_length, hl]
  rw [DimVal.none_vec, hl']
  refine (key _).trans ⟨fun h => DimVal.ext hd (DimVal.none_canonical _) ?_, fun h => ?_⟩
  · rw [DimVal.none_vec]; exact h
  · conv_lhs => rw [h]
    rw [DimVal.none_vec]
end

/-- Non-vacuity: metres per second; and the two wrong cases on concrete values (2 m / (4 s) as `Unit / Quantity`; `1.0 / second`). -/
example [IdealFns] :
    (Fn.unitDiv).run 2 [.unit ([1, 0] : DimVal Int), .unit [0, 1]] [.unit (1000 : ℝ), (.unit (3600 : ℝ) : Val ℝ ℝ)] = some (.runtimeUnit (1000 / 3600)) ∧
    (Fn.unitDiv).sig 2 [.unit ([1, 0] : DimVal Int), .unit [0, 1]] = some (.runtimeUnit [1, -1]) ∧
    (∃ v : ℝ, (Fn.unitDiv).run 2 [.unit ([1, 0] : DimVal Int), .quantity .f64 [0, 1]] [.unit (2 : ℝ), .quantity [(4 : ℝ)]] = some (.quantity [v]) ∧ v ≠ 2 / 4) ∧
    (Fn.unitDiv).sig 2 [.bare .f64, .unit ([0, 1] : DimVal Int)] = some (.quantity .f64 [0, 1]) := by
  refine ⟨rfl, by decide +kernel, ?_, by decide +kernel⟩
  obtain ⟨v, h1, h2, h3⟩ := C23_unit_div_quantity_wrong 2 .const (s := .f64) rfl (d := ([1, 0] : DimVal Int)) (d' := [0, 1]) (p := [1, -1]) (by decide +kernel) 2 4
  exact ⟨v, h1, by rw [h2]; norm_num⟩

end Diman
