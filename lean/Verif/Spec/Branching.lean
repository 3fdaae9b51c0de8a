import Verif.Spec.CalcTyping
/-!
# Programs with conditionals (C79)
Calculations (Spec/ErrorBook) whose course depends on comparisons. This is the language of the user's program, not of the macro: the comparisons of quantities are the
generated ones, those of plain numbers core's.
-/
set_option linter.style.haveILetI false
namespace Diman

/-- `<`, `<=`, `>`, `>=`. -/
inductive Relation
  | lt | le | gt | ge
deriving DecidableEq

/-- core's `PartialOrd::lt` and so on, which are defined by the result of `partial_cmp` (diman implements no other method). -/
def Relation.holds : Relation → Option Ordering → Bool
  | .lt, r => r == some .lt
  | .le, r => r == some .lt || r == some .eq
  | .gt, r => r == some .gt
  | .ge, r => r == some .gt || r == some .eq

/-- Whose `partial_cmp`: core's for two floats, or that of the generated implementation `o` at two storage types. -/
inductive Comparator
  | core (t : FloatTy)
  | generated (o : OperatorTrait) (sl sr : Storage)

section
variable {E U K M : Type} [FieldOps E] [DecidableEq E] [Prims K M]

/-- The result of `partial_cmp`; the outer `none` is a type error. -/
def Comparator.run : Comparator → Val K M → Val K M → Option (Option Ordering)
  | .core t, .bare [x], .bare [y] => some (partialCmp M t x y)
  | .core _, _, _ => none
  | .generated o sl sr, a, b => match o.run sl sr a b with
    | some (.ordering r) => some r
    | _ => none

/-- A program: a calculation, `if l < r { yes } else { no }` (or another relation), `let x = a; rest`. -/
inductive Branching (E U : Type) where
  | result (c : Calc E U)
  | ifCompare (q : Relation) (cmp : Comparator) (l r : Calc E U) (yes no : Branching E U)
  | letIn (a : Calc E U) (rest : Branching E U)

/-- The value of a program, in any arithmetic; `none` is a panic or a type error. -/
def Branching.eval (n : Nat) (fac : U → M) : List (Val K M) → Branching E U → Option (Val K M)
  | ρ, .result c => c.eval n fac ρ
  | ρ, .ifCompare q cmp l r yes no => do
    let a ← l.eval n fac ρ
    let b ← r.eval n fac ρ
    let o ← cmp.run a b
    if q.holds o then yes.eval n fac ρ else no.eval n fac ρ
  | ρ, .letIn a rest => do
    let v ← a.eval n fac ρ
    rest.eval n fac (v :: ρ)

/-- The operands of a comparison, `n` base dimensions. -/
def Comparator.Accepts (ss : List Storage) (n : Nat) : Comparator → Ty E → Ty E → Prop
  | .core t, lt, rt => lt = .bare t.storage ∧ rt = .bare t.storage
  | .generated o sl sr, lt, rt => o ∈ iterNumericTraits ss ∧ ∃ (i : Inst E) (l r : OpTy E), i.n = n ∧ o.Typed i l r .ordering ∧
      l.ty = lt ∧ r.ty = rt ∧ i.st o.storageTypes.1 = sl ∧ i.st o.storageTypes.2 = sr

/-- Type checking of programs. -/
inductive BranchingChecks (ss : List Storage) (n : Nat) (dimOf : U → DimVal E) (ok : Fn E → List (Ty E) → Prop) : List (Ty E) → Branching E U → Ty E → Prop where
  | result {Γ c t} : CalcChecks ss n dimOf ok Γ (.inl (c, t)) → BranchingChecks ss n dimOf ok Γ (.result c) t
  | ifCompare {Γ q cmp l r yes no lt rt t} : CalcChecks ss n dimOf ok Γ (.inl (l, lt)) → CalcChecks ss n dimOf ok Γ (.inl (r, rt)) →
      cmp.Accepts ss n lt rt → BranchingChecks ss n dimOf ok Γ yes t → BranchingChecks ss n dimOf ok Γ no t →
      BranchingChecks ss n dimOf ok Γ (.ifCompare q cmp l r yes no) t
  | letIn {Γ a rest u t} : CalcChecks ss n dimOf ok Γ (.inl (a, u)) → BranchingChecks ss n dimOf ok (u :: Γ) rest t →
      BranchingChecks ss n dimOf ok Γ (.letIn a rest) t
end

/-- The float type of a comparison. -/
def Comparator.At (t : FloatTy) : Comparator → Prop
  | .core t' => t' = t
  | .generated _ sl sr => sl = t.storage ∧ sr = t.storage

/-- No comparison that the run meets is close: each compares two numbers of type `t₀` whose exact values are further apart than the errors in the books. Only the
branches that the exact values take are looked at. -/
def Branching.Clear {E U : Type} [FieldOps E] [DecidableEq E] [IdealFns] (std : Bool) (t₀ : FloatTy) (n : Nat) (fac : U → Bounded) :
    List (Val Bounded Bounded) → Branching E U → Prop
  | _, .result _ => True
  | β, .ifCompare q cmp l r yes no => cmp.At t₀ ∧ ∃ a b A B,
      (letI := bookPrims std t₀; l.eval n fac β = some a ∧ r.eval n fac β = some b) ∧ a.numbers = [A] ∧ b.numbers = [B] ∧ A.ok ∧ B.ok ∧
      A.err + B.err < |A.value - B.value| ∧
      (if q.holds (some (compare A.value B.value)) then yes.Clear std t₀ n fac β else no.Clear std t₀ n fac β)
  | β, .letIn a rest => ∃ v, (letI := bookPrims std t₀; a.eval n fac β = some v) ∧ rest.Clear std t₀ n fac (v :: β)
end Diman
