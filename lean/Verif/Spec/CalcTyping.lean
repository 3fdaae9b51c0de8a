import Verif.Spec.ErrorBook
import Verif.Spec.Program
/-!
# Type checking of calculations (C79)
The rules are those of `Checks` (Spec/Program), for the calculations of Spec/ErrorBook.
-/
namespace Diman

/-- The numbers of a value: the components of a quantity or of a bare number or vector. -/
def Val.numbers {K M : Type} : Val K M → List K
  | .quantity r | .bare r => r
  | _ => []

section
variable {E U : Type} [FieldOps E] [DecidableEq E]

/-- Type checking of calculations: storage types `ss`, `n` base dimensions, `dimOf u` the dimension of unit `u`; `ok` says which calls are allowed, `Γ` has the
types of the variables. -/
inductive CalcChecks (ss : List Storage) (n : Nat) (dimOf : U → DimVal E) (ok : Fn E → List (Ty E) → Prop) :
    List (Ty E) → Sum (Calc E U × Ty E) (Calcs E U × List (Ty E)) → Prop where
  | var {Γ x t} : Γ[x]? = some t → CalcChecks ss n dimOf ok Γ (.inl (.var x, t))
  | unit {Γ u} : CalcChecks ss n dimOf ok Γ (.inl (.unit u, .unit (dimOf u)))
  | op {Γ o i l r lt rt out res} : o ∈ iterNumericTraits ss → i.n = n → CalcChecks ss n dimOf ok Γ (.inl (l, lt.ty)) →
      CalcChecks ss n dimOf ok Γ (.inl (r, rt.ty)) → o.Typed i lt rt out →
      (res = match out with
        | .value t => t
        | .updated => lt.ty
        | .bool => .bool
        | .ordering => .ordering) →
      CalcChecks ss n dimOf ok Γ (.inl (.op o (i.st o.storageTypes.1) (i.st o.storageTypes.2) l r, res))
  | call {Γ f tys args t} : ok f tys → f.sig n tys = some t → CalcChecks ss n dimOf ok Γ (.inr (args, tys)) →
      CalcChecks ss n dimOf ok Γ (.inl (.call f tys args, t))
  | letIn {Γ a b u t} : CalcChecks ss n dimOf ok Γ (.inl (a, u)) → CalcChecks ss n dimOf ok (u :: Γ) (.inl (b, t)) →
      CalcChecks ss n dimOf ok Γ (.inl (.letIn a b, t))
  | nil {Γ} : CalcChecks ss n dimOf ok Γ (.inr (.nil, []))
  | cons {Γ a as t ts} : CalcChecks ss n dimOf ok Γ (.inl (a, t)) → CalcChecks ss n dimOf ok Γ (.inr (as, ts)) →
      CalcChecks ss n dimOf ok Γ (.inr (.cons a as, t :: ts))
end
end Diman
