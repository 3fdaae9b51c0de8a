import Verif.Model.ImplSyn
import Verif.Props.C32
/-!
# C32 — the bodies of the generated operators have the types that the operators of the storage types take
-/
namespace Diman
section
variable {K M : Type}

/-- What the operator of the storage types takes, as core declares it: `l` and `r` are the numbers of references of receiver and argument of the method call. The
traits for arithmetic are implemented for values (`S: Mul<S>`); the receiver of a compound assignment or a comparison is a place; a comparison takes a reference to its
argument (to further references it is coerced). -/
def CoreTakes : Trait → Nat → Nat → Prop
  | .add, l, r | .sub, l, r | .mul, l, r | .div, l, r => l = 0 ∧ r = 0
  | .addAssign, l, r | .subAssign, l, r | .mulAssign, l, r | .divAssign, l, r => l ≤ 1 ∧ r = 0
  | .partialEq, l, r | .partialOrd, l, r => l ≤ 1 ∧ 1 ≤ r

/-- The references of an argument: those of the operand type and those of the signature that the trait prescribes. -/
def SelfArg.layers : SelfArg → Nat
  | .byValue => 0
  | .byMutRef => 1
  | .byRef => 1

/-- **C32, bodies.** In every generated operator the body, `self.0.op(&rhs.0)` and the like, type-checks: with `self` and `rhs` of the types that the printed signature
gives them, `.0` is taken of quantities only and `*` of references only, and the call of the storage types' operator has as many references as that takes; and it is the
stored values, in order, that are passed. -/
theorem C32_bodies {ss : List Storage} {o : OperatorTrait} (ho : o ∈ iterNumericTraits ss) (a b : Raw K) :
    ∃ l₀ l r₀ r : Arg (Raw K),
      accessArg o.fnReturnExpr.lhsField ⟨(if o.lhs.ref.isRef then 1 else 0) + o.name.lhsArg.layers, (o.lhs.wrap a : Val K M)⟩ = some l₀ ∧
      (if o.fnReturnExpr.lhsDeref then derefArg l₀ else some l₀) = some l ∧
      accessArg o.fnReturnExpr.rhsField ⟨(if o.rhs.ref.isRef then 1 else 0) + (if o.name.rhsArgRef then 1 else 0), (o.rhs.wrap b : Val K M)⟩ = some r₀ ∧
      o.fnReturnExpr.pre.apply r₀ = some r ∧ l.val = a ∧ r.val = b ∧ CoreTakes o.name l.layers r.layers := by
  refine iterNumericTraits_forall (p := fun o => ∃ l₀ l r₀ r : Arg (Raw K),
      accessArg o.fnReturnExpr.lhsField ⟨(if o.lhs.ref.isRef then 1 else 0) + o.name.lhsArg.layers, (o.lhs.wrap a : Val K M)⟩ = some l₀ ∧
      (if o.fnReturnExpr.lhsDeref then derefArg l₀ else some l₀) = some l ∧
      accessArg o.fnReturnExpr.rhsField ⟨(if o.rhs.ref.isRef then 1 else 0) + (if o.name.rhsArgRef then 1 else 0), (o.rhs.wrap b : Val K M)⟩ = some r₀ ∧
      o.fnReturnExpr.pre.apply r₀ = some r ∧ l.val = a ∧ r.val = b ∧ CoreTakes o.name l.layers r.layers) ?_ ho
  intro ty o ho
  fin_cases ho <;> exact ⟨_, _, _, _, rfl, rfl, rfl, rfl, rfl, rfl, And.intro (by first | exact Eq.refl 0 | exact Nat.le_refl 1 | exact Nat.zero_le 1)
    (by first | exact Eq.refl 0 | exact Nat.le_refl 1 | exact Nat.le_succ 1)⟩

/-- The evaluation of operators (`prepare`) gives `self` and `rhs` the types of the printed signature and accepts no call that core refuses. -/
theorem prepare_strict (t : Trait) (l r : Nat) :
    t.lhsLayers = t.lhsArg.layers ∧ t.rhsLayers = (if t.rhsArgRef then 1 else 0) ∧ (callOk t l r = true ↔ CoreTakes t l r) := by
  cases t <;> simp [Trait.lhsLayers, Trait.lhsArg, SelfArg.layers, Trait.rhsLayers, Trait.rhsArgRef, callOk, CoreTakes]
end

-- Of `&f64 * &Quantity<f64, D>`, the body `(*self).mul(rhs.0)`: both are stored values.
example : ∃ o ∈ iterNumericTraits [.f64], o.name = .mul ∧ o.lhs.kind = .storage ∧ o.lhs.ref = .ref ∧ o.rhs.ref = .ref ∧
    o.fnReturnExpr = ⟨false, true, .nothing, true, true⟩ := by decide +kernel
end Diman
