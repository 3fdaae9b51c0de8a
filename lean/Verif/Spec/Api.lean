import Verif.Model.Api
import Verif.Spec.DimType
/-!
# Specification vocabulary for the generated API (C20-C25, C31-C33, C43)
-/
namespace Diman
variable {E : Type} [FieldOps E]

/-- The dimension a type carries in a unit system with `n` base dimensions: a bare number is dimensionless; truth values and
orderings have none. -/
def Ty.dim (n : Nat) : Ty E → Option (DimVal E)
  | .quantity _ d => some d
  | .bare _ => some (DimVal.none n)
  | .unit d => some d
  | .runtimeUnit d => some d
  | .bool => none
  | .ordering => none

/-- A type of the unit system: its dimension has one exponent per base dimension, in normal form. -/
def Ty.WF [Exponent E] [LawfulExponent E] (n : Nat) (t : Ty E) : Prop :=
  ∀ d, t.dim n = some d → d.length = n ∧ d.Canonical

/-- The number stored in a quantity or a bare value. -/
def Val.raw? {K M : Type} : Val K M → Option (Raw K)
  | .quantity r => some r
  | .bare r => some r
  | _ => none

/-- An operand value of the kind an implementation expects, with stored value `r`. -/
def Operand.wrap {K M : Type} (p : Operand) (r : Raw K) : Val K M :=
  match p.kind with
  | .storage => .bare r
  | _ => .quantity r

/-- The value an operator implementation returns for the primitive result `x`. -/
def OperatorTrait.result {K M : Type} (o : OperatorTrait) (x : RawOut K) : Val K M :=
  match x with
  | .raw r => if o.name.hasOutput then .quantity r else o.lhs.wrap r
  | .bool b => .bool b
  | .ordering b => .ordering b

/-- A value is of a type: same kind, and a stored value has the number of components of the storage type. -/
def Val.HasTy {K M : Type} : Val K M → Ty E → Prop
  | .quantity r, .quantity s _ => r.length = s.numDims
  | .bare r, .bare s => r.length = s.numDims
  | .unit _, .unit _ => True
  | .runtimeUnit _, .runtimeUnit _ => True
  | .bool _, .bool => True
  | .ordering _, .ordering => True
  | _, _ => False

/-- Argument values are of the argument types. -/
def ArgsHaveTy {K M : Type} (args : List (Val K M)) (tys : List (Ty E)) : Prop := List.Forall₂ Val.HasTy args tys

end Diman
