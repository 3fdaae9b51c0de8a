import Verif.Model.Resolve
import Verif.Spec.Dims
import Mathlib.Logic.Relation
/-!
# Specification vocabulary for resolution (C07-C15, C38-C40)
Everything here is phrased in terms of the statements the user wrote (after prefix/alias expansion): their names, the identifiers
they mention, their right-hand sides. Nothing refers to the resolver.
-/
namespace Diman

mutual
/-- The identifiers an expression mentions, left to right. -/
def Expr.idents {C E : Type} : Expr (Atom C) E → List Str
  | .value f => f.idents
  | .binary l _ r => l.idents ++ r.idents
/-- The same for a factor. -/
def Factor.idents {C E : Type} : Factor (Atom C) E → List Str
  | .value (.concrete _) => []
  | .value (.other x) => [x]
  | .power (.concrete _) _ => []
  | .power (.other x) _ => [x]
  | .paren e => e.idents
end

/-- The identifiers on the right-hand side of a dimension definition. -/
def DimensionEntry.mentions {E : Type} (d : DimensionEntry E) : List Str :=
  match d.rhs with
  | .base _ => []
  | .expression e => e.idents

/-- The identifiers on the right-hand side of a unit definition (for a base unit: its dimension). -/
def UnitEntry.mentions {E M : Type} (u : UnitEntry E M) : List Str :=
  match u.definition with
  | .base d => [d]
  | .expression e => e.idents

/-- The identifiers on the right-hand side of a constant definition. -/
def ConstantEntry.mentions {E M : Type} (c : ConstantEntry E M) : List Str := c.rhs.idents

/-- All definitions as (name, mentioned identifiers). -/
def Unresolved.definitions {E M : Type} (u : UnresolvedDefs E M) : List (Str × List Str) :=
  u.dimensions.map (fun d => (d.name, d.mentions)) ++ u.units.map (fun x => (x.name, x.mentions)) ++
    u.constants.map (fun c => (c.name, c.mentions))

/-- All defined names, with multiplicity. -/
def Unresolved.names {E M : Type} (u : UnresolvedDefs E M) : List Str :=
  u.dimensions.map DimensionEntry.name ++ u.units.map UnitEntry.name ++ u.constants.map ConstantEntry.name

section
variable (defs : List (Str × List Str))

/-- `x` can be computed: some definition of `x` mentions only names that can be computed. -/
inductive Grounded : Str → Prop
  | intro (x : Str) (rs : List Str) (hx : (x, rs) ∈ defs) (h : ∀ y ∈ rs, Grounded y) : Grounded x

/-- The definition of `x` mentions `y`. -/
def Mentions (x y : Str) : Prop := ∃ rs, (x, rs) ∈ defs ∧ y ∈ rs

/-- `x` depends, directly or indirectly, on `y`. -/
def DependsOn (x y : Str) : Prop := Relation.TransGen (Mentions defs) x y

/-- `x` depends on a name that is part of a cycle, or on a name that is defined nowhere. -/
def DependsOnCycleOrUndefined (x : Str) : Prop :=
  ∃ y, DependsOn defs x y ∧ (DependsOn defs y y ∨ y ∉ defs.map Prod.fst)

end

section
variable {E M : Type} [Exponent E] [LawfulExponent E] [MagOps E M]
open LawfulExponent

/-- The exponent of base dimension `k` in the (first) generated dimension called `x`; zero if there is none. -/
def Defs.dimExpo (D : Defs E M) (x : Str) (k : Str) : ℚ :=
  match D.dimensions.find? (fun d => d.name = x) with
  | some d => d.dims.expo k
  | none => 0

/-- The exponent of base dimension `k` in the generated unit or constant called `x`; zero if there is none. -/
def Defs.unitExpo (D : Defs E M) (x : Str) (k : Str) : ℚ :=
  match D.units.find? (fun u => u.name = x) with
  | some u => u.dims.expo k
  | none => match D.constants.find? (fun c => c.name = x) with
    | some c => c.dims.expo k
    | none => 0

/-- The conversion factor of the generated unit or constant called `x`. -/
def Defs.magOf (D : Defs E M) (x : Str) : M :=
  match D.units.find? (fun u => u.name = x) with
  | some u => u.mag
  | none => match D.constants.find? (fun c => c.name = x) with
    | some c => c.mag
    | none => MagOps.one E

/-- A literal has no dimension; an identifier has the dimension `ρ` gives it. -/
def Atom.expo {C : Type} (ρ : Str → Str → ℚ) : Atom C → Str → ℚ
  | .concrete _, _ => 0
  | .other x, k => ρ x k

/-- A literal is its own factor; an identifier has the factor `ρ` gives it. -/
def Atom.mag (ρ : Str → M) : Atom M → M
  | .concrete m => m
  | .other x => ρ x

mutual
/-- The conversion factor of an expression: products, quotients and powers of the factors of its parts. -/
def Expr.specMag {T : Type} (ρ : T → M) : Expr T E → M
  | .value f => f.specMag ρ
  | .binary l .mul r => MagOps.mul E (l.specMag ρ) (r.specMag ρ)
  | .binary l .div r => MagOps.div E (l.specMag ρ) (r.specMag ρ)
/-- The same for a factor. -/
def Factor.specMag {T : Type} (ρ : T → M) : Factor T E → M
  | .value v => ρ v
  | .power v e => MagOps.pow (ρ v) e
  | .paren e => e.specMag ρ
end

/-- Exponent literals of a statement all satisfy `P`. -/
def Definition.AllExp {B C : Type} (P : E → Prop) : Definition E B C → Prop
  | .base _ => True
  | .expression e => e.AllExp P

/-- Every exponent literal of the unit system denotes a rational (is not `n/0`). Always true with integer exponents. -/
def Unresolved.GoodExponents (u : UnresolvedDefs E M) : Prop :=
  (∀ d ∈ u.dimensions, d.rhs.AllExp (Good : E → Prop)) ∧ (∀ x ∈ u.units, x.definition.AllExp (Good : E → Prop)) ∧
    (∀ c ∈ u.constants, c.rhs.AllExp (Good : E → Prop))

end
end Diman
