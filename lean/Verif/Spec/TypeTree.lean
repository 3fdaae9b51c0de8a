import Verif.Spec.Api
import Verif.Model.Operators
/-!
# Types built with `Product` and `Quotient` (C66)
`Product<A, B>` is `<A as Mul<B>>::Output`, `Quotient<A, B>` is `<A as Div<B>>::Output`: the type of the result of the operator.
-/
namespace Diman

/-- A type written with `Product<…>` and `Quotient<…>`, nested as the user likes. -/
inductive TypeTree (E : Type) where
  | leaf (t : Ty E)
  | product (a b : TypeTree E)
  | quotient (a b : TypeTree E)

section
variable {E : Type}

/-- The types at the leaves with the power `1` or `-1` they have in the product. -/
def TypeTree.leaves : TypeTree E → List (Int × Ty E)
  | .leaf t => [(1, t)]
  | .product a b => a.leaves ++ b.leaves
  | .quotient a b => a.leaves ++ b.leaves.map fun p => (-p.1, p.2)

/-- The storage type of a quantity or a number. -/
def Ty.storage? : Ty E → Option Storage
  | .quantity s _ | .bare s => some s
  | _ => none

/-- The type is a quantity. -/
def Ty.isQty : Ty E → Bool
  | .quantity .. => true
  | _ => false

variable [FieldOps E]

/-- src/lib.rs:526, 537 `Product`, `Quotient`: the output type of `*` and `/`, which is diman's if one of the operands is a quantity (`OpTyped`), and core's or
glam's otherwise. -/
def OperatorOutput (storages : List Storage) (n : Nat) (t : Trait) (l r out : Ty E) : Prop :=
  OpTyped storages n t ⟨.value, l⟩ ⟨.value, r⟩ (.value out) ∨
  ∃ a b c, l = .bare a ∧ r = .bare b ∧ out = .bare c ∧ storageOut t a b = some c

/-- The type a tree stands for, if it compiles. -/
inductive TypeTree.Denotes (storages : List Storage) (n : Nat) : TypeTree E → Ty E → Prop
  | leaf (t : Ty E) : Denotes storages n (.leaf t) t
  | product {a b : TypeTree E} {ta tb t : Ty E} : Denotes storages n a ta → Denotes storages n b tb → OperatorOutput storages n .mul ta tb t →
      Denotes storages n (.product a b) t
  | quotient {a b : TypeTree E} {ta tb t : Ty E} : Denotes storages n a ta → Denotes storages n b tb → OperatorOutput storages n .div ta tb t →
      Denotes storages n (.quotient a b) t

/-- The exponent of the `k`th base dimension in a type. -/
def Ty.expo [Exponent E] [LawfulExponent E] (n : Nat) (t : Ty E) (k : Nat) : ℚ :=
  match t.dim n with
  | some d => d.vec.getD k 0
  | none => 0
end
end Diman
