import Verif.Proofs.Api
import Verif.Proofs.Exponent
/-!
# C32 — a quantity behaves like its storage type
For every choice of number type `K`, conversion factors `M` and primitive operations `Prims K M` (in particular the soft floats and the
exact numbers).
-/
set_option linter.unusedSectionVars false
namespace Diman
variable {E : Type} [FieldOps E] [DecidableEq E] {K M : Type} [Prims K M]

/-- Every generated operator, for operands passed by value or reference: its result on operands with stored values `a` and `b` is the
result of the same operator of the storage types on `a` and `b`, in that order, wrapped in a quantity (for a compound assignment: stored
back into the left operand; for comparisons: returned as it is). -/
theorem C32_operators {ss : List Storage} {o : OperatorTrait} (ho : o ∈ iterNumericTraits ss) (sl sr : Storage) (a b : Raw K) :
    o.run sl sr (o.lhs.wrap a : Val K M) (o.rhs.wrap b) = (rawOp M o.name sl sr a b).map o.result :=
  table_run ho sl sr a b

/-- No well-typed operator application fails or returns a value of another type than announced. -/
theorem C32_operators_sound {ss : List Storage} {o : OperatorTrait} (ho : o ∈ iterNumericTraits ss) {i : Inst E} {l r : OpTy E}
    {out : OpOut E} (h : o.Typed i l r out) {a b : Val K M} (ha : a.HasTy l.ty) (hb : b.HasTy r.ty) :
    ∃ v, o.run (i.st o.storageTypes.1) (i.st o.storageTypes.2) a b = some v ∧ v.HasTy (out.ty l.ty) := op_sound ho h ha hb

/-- No well-typed call of a generated function fails or returns a value of another type than announced, except that `clamp` panics
exactly when the storage type's `clamp` does. -/
theorem C32_functions_sound {n : Nat} {f : Fn E} {tys : List (Ty E)} {t : Ty E} (h : f.sig n tys = some t) {args : List (Val K M)}
    (ha : ArgsHaveTy args tys) : (∃ v, f.run n tys args = some v ∧ v.HasTy t) ∨ (f = .clamp ∧ f.run n tys args = none) := fn_sound h ha

theorem run_of_sig {n : Nat} {f : Fn E} {tys : List (Ty E)} {t : Ty E} (h : f.sig n tys = some t) (args : List (Val K M)) :
    f.run n tys args = f.body ((storageOf tys).getD .f64) args := by simp [Fn.run, h]

/-- Negation and absolute value, for every storage type: the components' negation and absolute value. -/
theorem C32_neg_abs (n : Nat) (s : Storage) (d : DimVal E) (r : Raw K) :
    (Fn.neg).run n [.quantity s d] [(.quantity r : Val K M)] = some (.quantity (r.map (Prims.neg M s.base))) ∧
    (Fn.abs).run n [.quantity s d] [(.quantity r : Val K M)] = some (.quantity (r.map (Prims.abs M s.base))) := ⟨rfl, rfl⟩

/-- `min`, `max`, `clamp` of floats: the float's, with the arguments in the same order; the arguments may be quantities of the same
dimension or, for dimensionless quantities, bare numbers. -/
theorem C32_min_max_clamp (n : Nat) (s : Storage) (hs : s.isFloat = true) (d : DimVal E) (x y z : K) :
    (Fn.min).run n [.quantity s d, .quantity s d] [.quantity [x], (.quantity [y] : Val K M)] = some (.quantity [Prims.min M s.base x y]) ∧
    (Fn.max).run n [.quantity s d, .quantity s d] [.quantity [x], (.quantity [y] : Val K M)] = some (.quantity [Prims.max M s.base x y]) ∧
    (Fn.clamp).run n [.quantity s d, .quantity s d, .quantity s d] [.quantity [x], .quantity [y], (.quantity [z] : Val K M)] =
      (Prims.clamp M s.base x y z).map (fun w => .quantity [w]) ∧
    (d = DimVal.none n →
      (Fn.min).run n [.quantity s d, .bare s] [.quantity [x], (.bare [y] : Val K M)] = some (.quantity [Prims.min M s.base x y]) ∧
      (Fn.max).run n [.quantity s d, .bare s] [.quantity [x], (.bare [y] : Val K M)] = some (.quantity [Prims.max M s.base x y]) ∧
      (Fn.clamp).run n [.quantity s d, .bare s, .bare s] [.quantity [x], .bare [y], (.bare [z] : Val K M)] =
        (Prims.clamp M s.base x y z).map (fun w => .quantity [w])) := by
  refine ⟨?_, ?_, ?_, ?_⟩
  · rw [run_of_sig (t := .quantity s d) (by simp [Fn.sig, hs, intoQuantityOk])]; simp [Fn.body, Val.into0, storageOf]
  · rw [run_of_sig (t := .quantity s d) (by simp [Fn.sig, hs, intoQuantityOk])]; simp [Fn.body, Val.into0, storageOf]
  · rw [run_of_sig (t := .quantity s d) (by simp [Fn.sig, hs, intoQuantityOk])]; simp [Fn.body, Val.into0, storageOf]
  · rintro rfl
    refine ⟨?_, ?_, ?_⟩
    · rw [run_of_sig (t := .quantity s (DimVal.none n)) (by simp [Fn.sig, hs, intoQuantityOk])]; simp [Fn.body, Val.into0, storageOf]
    · rw [run_of_sig (t := .quantity s (DimVal.none n)) (by simp [Fn.sig, hs, intoQuantityOk])]; simp [Fn.body, Val.into0, storageOf]
    · rw [run_of_sig (t := .quantity s (DimVal.none n)) (by simp [Fn.sig, hs, intoQuantityOk])]; simp [Fn.body, Val.into0, storageOf]

/-- The 21 float functions of dimensionless quantities are those of the float. -/
theorem C32_dimensionless (n : Nat) (f : FloatFn) (s : Storage) (hs : s.isFloat = true) (x : K) :
    (Fn.dimensionless f).run n [.quantity s (DimVal.none n : DimVal E)] [(.quantity [x] : Val K M)] =
      some (.quantity [Prims.fn M f s.base x]) := by
  rw [run_of_sig (t := .quantity s (DimVal.none n)) (by simp [Fn.sig, hs])]; simp [Fn.body, storageOf]

/-- Reading the stored value, wrapping a number, zero and default values. -/
theorem C32_wrap_unwrap (n : Nat) (s : Storage) (d : DimVal E) (r : Raw K) :
    (Fn.valueUnchecked).run n [.quantity s d] [(.quantity r : Val K M)] = some (.bare r) ∧
    (Fn.valueUncheckedRef).run n [.quantity s d] [(.quantity r : Val K M)] = some (.bare r) ∧
    (Fn.newUnchecked d).run n [.bare s] [(.bare r : Val K M)] = some (.quantity r) ∧
    (Fn.from).run n [(.bare s : Ty E)] [(.bare r : Val K M)] = some (.quantity r) ∧
    (Fn.value).run n [(.quantity s (DimVal.none n) : Ty E)] [(.quantity r : Val K M)] = some (.bare r) ∧
    (Fn.valueRef).run n [(.quantity s (DimVal.none n) : Ty E)] [(.quantity r : Val K M)] = some (.bare r) ∧
    (Fn.deref).run n [(.quantity s (DimVal.none n) : Ty E)] [(.quantity r : Val K M)] = some (.bare r) ∧
    (Fn.zero s d).run n [] ([] : List (Val K M)) = some (.quantity (List.replicate s.numDims (Prims.zero M s.base))) ∧
    (Fn.default s d).run n [] ([] : List (Val K M)) = some (.quantity (List.replicate s.numDims (Prims.zero M s.base))) := by
  refine ⟨rfl, rfl, rfl, rfl, ?_, ?_, ?_, rfl, rfl⟩ <;> simp [Fn.run, Fn.sig, Fn.body]

/-- The sign tests are comparisons with zero, `is_nan` is the float's. -/
theorem C32_predicates (n : Nat) (s : Storage) (hs : s.isFloat = true) (d : DimVal E) (x : K) :
    (Fn.isPositive).run n [.quantity s d] [(.quantity [x] : Val K M)] = some (.bool (Prims.lt M s.base (Prims.zero M s.base) x)) ∧
    (Fn.isNegative).run n [.quantity s d] [(.quantity [x] : Val K M)] = some (.bool (Prims.lt M s.base x (Prims.zero M s.base))) ∧
    (Fn.isPositiveOrZero).run n [.quantity s d] [(.quantity [x] : Val K M)] =
      some (.bool (Prims.lt M s.base (Prims.zero M s.base) x || Prims.eq M s.base (Prims.zero M s.base) x)) ∧
    (Fn.isNegativeOrZero).run n [.quantity s d] [(.quantity [x] : Val K M)] =
      some (.bool (Prims.lt M s.base x (Prims.zero M s.base) || Prims.eq M s.base x (Prims.zero M s.base))) ∧
    (Fn.isNan).run n [.quantity s d] [(.quantity [x] : Val K M)] = some (.bool (Prims.isNan M s.base x)) := by
  simp [Fn.run, Fn.sig, Fn.body, hs, storageOf, rawLe]

/-- Non-vacuity: `&Quantity - Quantity` on f64 is in the table and subtracts in this order; so is `f64 / Quantity`. -/
example (x y : K) : (⟨.sub, qG .ref, qG⟩ : OperatorTrait) ∈ iterNumericTraits [.f64] ∧
    (⟨.sub, qG .ref, qG⟩ : OperatorTrait).run .f64 .f64 (.quantity [x] : Val K M) (.quantity [y]) = some (.quantity [Prims.sub M .f64 x y]) ∧
    (⟨.div, sC .f64, qG⟩ : OperatorTrait).run .f64 .f64 (.bare [x] : Val K M) (.quantity [y]) = some (.quantity [Prims.div M .f64 x y]) :=
  ⟨by decide, rfl, rfl⟩

end Diman
