import Verif.Spec.Api
import Verif.Proofs.DimType
import Mathlib.Tactic.FinCases
/-!
# The table of operator implementations
-/
set_option linter.unusedSectionVars false
namespace Diman

theorem iterNumericTraits_forall {p : OperatorTrait → Prop} (h : ∀ ty, ∀ o ∈ iterNumericTraits [ty], p o)
    {ss : List Storage} {o : OperatorTrait} (ho : o ∈ iterNumericTraits ss) : p o := by
  unfold iterNumericTraits at ho
  rw [List.mem_append] at ho
  rcases ho with ho | ho
  · refine h .f64 o ?_
    unfold iterNumericTraits
    exact List.mem_append_left _ ho
  · rw [List.mem_flatMap] at ho
    obtain ⟨ty, _, ho⟩ := ho
    refine h ty o ?_
    unfold iterNumericTraits
    refine List.mem_append_right _ ?_
    rw [List.mem_flatMap]
    exact ⟨ty, by simp, ho⟩

/-- The combinations of operator, operand kinds and storage specifications that occur in the table. -/
def OperatorTrait.shapeOk (o : OperatorTrait) : Bool :=
  match o.lhs.kind, o.rhs.kind, o.lhs.storage, o.rhs.storage, o.name with
  | .quantity, .quantity, .generic, .generic, t => t ≠ .mulAssign && t ≠ .divAssign
  | .quantity, .dimensionless, .generic, .generic, t => t = .mulAssign || t = .divAssign
  | .dimensionless, .storage, .generic, .generic, t => t = .add || t = .sub || t = .addAssign || t = .subAssign
  | .dimensionless, .storage, .generic, .concrete _, t => t = .partialEq || t = .partialOrd
  | .storage, .dimensionless, .concrete a, .concrete b, t => a = b && t ≠ .mul && t ≠ .div && t ≠ .partialEq && t ≠ .partialOrd
  | .storage, .dimensionless, .concrete _, .generic, t => t = .partialEq || t = .partialOrd
  | .quantity, .storage, .generic, .concrete _, t => t = .mul || t = .div
  | .quantity, .storage, .concrete a, .concrete b, t => a = b && (t = .mulAssign || t = .divAssign)
  | .storage, .quantity, .concrete _, .generic, t => t = .mul || t = .div
  | _, _, _, _, _ => false

theorem table_shapeOk {ss : List Storage} {o : OperatorTrait} (ho : o ∈ iterNumericTraits ss) : o.shapeOk = true :=
  iterNumericTraits_forall (p := fun o => o.shapeOk = true) (by intro ty; cases ty <;> decide) ho

section
variable {K M : Type} [Prims K M]

theorem table_prepare {ss : List Storage} {o : OperatorTrait} (ho : o ∈ iterNumericTraits ss) (a b : Raw K) :
    o.prepare (o.lhs.wrap a : Val K M) (o.rhs.wrap b) = some (a, b) := by
  refine iterNumericTraits_forall (p := fun o => o.prepare (o.lhs.wrap a : Val K M) (o.rhs.wrap b) = some (a, b)) ?_ ho
  intro ty o ho
  fin_cases ho <;> rfl

theorem rawOp_kind {t : Trait} {sl sr : Storage} {a b : Raw K} {x : RawOut K} (h : rawOp M t sl sr a b = some x) :
    match t with
    | .partialEq => ∃ v, x = .bool v
    | .partialOrd => ∃ v, x = .ordering v
    | _ => ∃ v, x = .raw v := by
  unfold rawOp at h
  split at h
  · cases h
  · cases t
    case partialEq => exact ⟨_, (Option.some.inj h).symm⟩
    case partialOrd =>
      simp only at h
      split at h
      · exact ⟨_, (Option.some.inj h).symm⟩
      · cases h
    all_goals
      simp only [Option.map_eq_some_iff] at h ⊢
      obtain ⟨v, _, rfl⟩ := h; exact ⟨_, rfl⟩

theorem finish_eq (o : OperatorTrait) {sl sr : Storage} {a b : Raw K} {x : RawOut K} (h : rawOp M o.name sl sr a b = some x) :
    (o.finish x : Val K M) = o.result x := by
  have hk := rawOp_kind h
  obtain ⟨t, ⟨lk, ls, lr⟩, r⟩ := o
  cases t <;> obtain ⟨v, rfl⟩ := hk <;> cases lk <;> rfl

/-- Every implementation of the table passes the stored values, in order, to the operator of the storage types and wraps the
result. -/
theorem table_run {ss : List Storage} {o : OperatorTrait} (ho : o ∈ iterNumericTraits ss) (sl sr : Storage) (a b : Raw K) :
    o.run sl sr (o.lhs.wrap a : Val K M) (o.rhs.wrap b) = (rawOp M o.name sl sr a b).map o.result := by
  unfold OperatorTrait.run
  rw [table_prepare ho]
  simp only [Option.bind_eq_bind, Option.bind_some]
  cases h : rawOp M o.name sl sr a b with
  | none => simp
  | some x => simp [finish_eq o h]
end
end Diman

namespace Diman
section
variable {E : Type} [FieldOps E]

/-- What an implementation of the table means for types, spelled out per operator. -/
theorem typed_inv {ss : List Storage} {o : OperatorTrait} (ho : o ∈ iterNumericTraits ss) {i : Inst E} {l r : OpTy E} {out : OpOut E}
    (h : o.Typed i l r out) :
    ∃ sl sr s, i.st o.storageTypes.1 = sl ∧ i.st o.storageTypes.2 = sr ∧ storageOut o.name sl sr = some s ∧
    ((∃ dl dr d, o.lhs.kind = .quantity ∧ o.rhs.kind = .quantity ∧ l.ty = .quantity sl dl ∧ r.ty = .quantity sr dr ∧
        ((o.name = .mul ∧ dl.add dr = some d) ∨ (o.name = .div ∧ dl.sub dr = some d)) ∧ out = .value (.quantity s d)) ∨
     (∃ d, o.lhs.kind = .quantity ∧ o.rhs.kind = .quantity ∧ l.ty = .quantity sl d ∧ r.ty = .quantity sr d ∧
        (((o.name = .add ∨ o.name = .sub) ∧ out = .value (.quantity s d)) ∨
         ((o.name = .addAssign ∨ o.name = .subAssign) ∧ out = .updated) ∨
         (o.name = .partialEq ∧ out = .bool) ∨ (o.name = .partialOrd ∧ out = .ordering))) ∨
     (∃ d, o.lhs.kind = .quantity ∧ o.rhs.kind ≠ .quantity ∧ l.ty = .quantity sl d ∧
        ((o.rhs.kind = .dimensionless ∧ r.ty = .quantity sr (DimVal.none i.n)) ∨ (o.rhs.kind = .storage ∧ r.ty = .bare sr)) ∧
        (o.name = .mulAssign ∨ o.name = .divAssign) ∧ out = .updated) ∨
     (∃ d, o.lhs.kind = .quantity ∧ o.rhs.kind = .storage ∧ l.ty = .quantity sl d ∧ r.ty = .bare sr ∧
        (o.name = .mul ∨ o.name = .div) ∧ out = .value (.quantity s d)) ∨
     (∃ d d', o.lhs.kind = .storage ∧ o.rhs.kind = .quantity ∧ l.ty = .bare sl ∧ r.ty = .quantity sr d ∧
        ((o.name = .mul ∧ d' = d) ∨ (o.name = .div ∧ d.neg = some d')) ∧ out = .value (.quantity s d')) ∨
     (((o.lhs.kind = .dimensionless ∧ o.rhs.kind = .storage ∧ l.ty = .quantity sl (DimVal.none i.n) ∧ r.ty = .bare sr) ∨
       (o.lhs.kind = .storage ∧ o.rhs.kind = .dimensionless ∧ l.ty = .bare sl ∧ r.ty = .quantity sr (DimVal.none i.n))) ∧
        (((o.name = .add ∨ o.name = .sub) ∧ out = .value (.quantity s (DimVal.none i.n))) ∨
         ((o.name = .addAssign ∨ o.name = .subAssign) ∧ out = .updated) ∨
         (o.name = .partialEq ∧ out = .bool) ∨ (o.name = .partialOrd ∧ out = .ordering) ∨
         (o.lhs.kind = .storage ∧ (o.name = .mulAssign ∨ o.name = .divAssign) ∧ out = .updated)))) := by
  have hs := table_shapeOk ho
  obtain ⟨-, -, hl, hr, s, hst, hout⟩ := h
  refine ⟨_, _, s, rfl, rfl, hst, ?_⟩
  clear ho hst
  unfold OperatorTrait.shapeOk at hs
  obtain ⟨t, ⟨lk, ls, lref⟩, ⟨rk, rs, rref⟩⟩ := o
  obtain ⟨_, lt⟩ := l
  obtain ⟨_, rt⟩ := r
  simp only [OperatorTrait.lhsType, OperatorTrait.rhsType, OperatorTrait.dimensionTypes] at hl hr
  simp only at hs hl hr hout ⊢
  cases lk <;> cases rk <;> (try (simp at hs; done)) <;> cases ls <;> cases rs <;> (try (simp at hs; done)) <;>
    cases t <;> (try (simp at hs; done)) <;>
    simp [typeForOperand, OperatorTrait.differentDimensionsAllowed, OperatorTrait.outputDimension, Inst.evalDim, Inst.dim] at hl hr hout ⊢ <;>
    (try subst hl) <;> (try subst hr) <;> simp_all
end
end Diman
