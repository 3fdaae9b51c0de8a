import Verif.Spec.Resolve
/-!
# Specification vocabulary for rewriting definitions (C54)
What it means that one unit system arises from another by writing out, or by naming, parts of the right-hand sides.
-/
namespace Diman

section
variable {C E : Type}

mutual
/-- `e'` is `e` with some names written out: where `e` has the name `x` as a factor, `e'` may have `(b)` instead, `b` being a right-hand side
of `x` according to `body`. -/
inductive Expr.WritesOut (body : Str → Expr (Atom C) E → Prop) : Expr (Atom C) E → Expr (Atom C) E → Prop
  | value {f f' : Factor (Atom C) E} (h : Factor.WritesOut body f f') : Expr.WritesOut body (.value f) (.value f')
  | binary {l l' : Expr (Atom C) E} {o : Operator} {r r' : Factor (Atom C) E} (hl : Expr.WritesOut body l l')
      (hr : Factor.WritesOut body r r') : Expr.WritesOut body (.binary l o r) (.binary l' o r')
/-- The same for a factor. A power `x^n` stays as it is: the language has no powers of parentheses. -/
inductive Factor.WritesOut (body : Str → Expr (Atom C) E → Prop) : Factor (Atom C) E → Factor (Atom C) E → Prop
  | same (f : Factor (Atom C) E) : Factor.WritesOut body f f
  | paren {e e' : Expr (Atom C) E} (h : Expr.WritesOut body e e') : Factor.WritesOut body (.paren e) (.paren e')
  | name {x : Str} {b : Expr (Atom C) E} (h : body x b) : Factor.WritesOut body (.value (.other x)) (.paren b)
end

mutual
/-- `e'` is `e` with additional parentheses around parts that do not need them: around the whole expression, around a product or quotient on
the left of an operator, or around a single factor. -/
inductive Expr.Parenthesises : Expr (Atom C) E → Expr (Atom C) E → Prop
  | value {f f' : Factor (Atom C) E} (h : Factor.Parenthesises f f') : Expr.Parenthesises (.value f) (.value f')
  | binary {l l' : Expr (Atom C) E} {o : Operator} {r r' : Factor (Atom C) E} (hl : Expr.Parenthesises l l')
      (hr : Factor.Parenthesises r r') : Expr.Parenthesises (.binary l o r) (.binary l' o r')
  | wrap {e e' : Expr (Atom C) E} (h : Expr.Parenthesises e e') : Expr.Parenthesises e (.value (.paren e'))
/-- The same for a factor. -/
inductive Factor.Parenthesises : Factor (Atom C) E → Factor (Atom C) E → Prop
  | same (f : Factor (Atom C) E) : Factor.Parenthesises f f
  | paren {e e' : Expr (Atom C) E} (h : Expr.Parenthesises e e') : Factor.Parenthesises (.paren e) (.paren e')
  | wrap {f f' : Factor (Atom C) E} (h : Factor.Parenthesises f f') : Factor.Parenthesises f (.paren (.value f'))
end

/-- Two right-hand sides of the same sort, whose expressions are related by `R`. -/
inductive Definition.Related {B : Type} (R : Expr (Atom C) E → Expr (Atom C) E → Prop) : Definition E B C → Definition E B C → Prop
  | base (b : B) : Definition.Related R (.base b) (.base b)
  | expression {e e' : Expr (Atom C) E} (h : R e e') : Definition.Related R (.expression e) (.expression e')

end

section
variable {E M : Type}

/-- `b` is the expression that defines the dimension `x`. -/
def Unresolved.DimensionBody (u : UnresolvedDefs E M) (x : Str) (b : Expr (Atom Unit) E) : Prop :=
  ∃ d ∈ u.dimensions, d.name = x ∧ d.rhs = .expression b

/-- `b` is the expression that defines the unit or constant `x`. -/
def Unresolved.ValueBody (u : UnresolvedDefs E M) (x : Str) (b : Expr (Atom M) E) : Prop :=
  (∃ y ∈ u.units, y.name = x ∧ y.definition = .expression b) ∨ ∃ c ∈ u.constants, c.name = x ∧ c.rhs = b

/-- Two dimension statements that differ at most in the expression on the right. -/
structure DimensionEntry.Related (R : Expr (Atom Unit) E → Expr (Atom Unit) E → Prop) (d d' : DimensionEntry E) : Prop where
  name : d.name = d'.name
  rhs : Definition.Related R d.rhs d'.rhs

/-- Two unit statements that differ at most in the expression on the right. -/
structure UnitTemplate.Related (R : Expr (Atom M) E → Expr (Atom M) E → Prop) (x x' : UnitTemplate E M) : Prop where
  name : x.name = x'.name
  symbol : x.symbol = x'.symbol
  aliases : x.aliases = x'.aliases
  prefixes : x.prefixes = x'.prefixes
  annotation : x.annotation = x'.annotation
  definition : Definition.Related R x.definition x'.definition

/-- Two constant statements that differ at most in the expression on the right. -/
structure ConstantEntry.Related (R : Expr (Atom M) E → Expr (Atom M) E → Prop) (c c' : ConstantEntry E M) : Prop where
  name : c.name = c'.name
  annotation : c.annotation = c'.annotation
  rhs : R c.rhs c'.rhs

/-- Two unit systems that agree statement by statement, except that the expressions on the right are related by `RD` (in dimension
statements) and `RV` (in unit and constant statements). -/
structure UnresolvedTemplates.Related (RD : Expr (Atom Unit) E → Expr (Atom Unit) E → Prop) (RV : Expr (Atom M) E → Expr (Atom M) E → Prop)
    (t t' : UnresolvedTemplates E M) : Prop where
  dimensionTypes : t.dimensionTypes = t'.dimensionTypes
  quantityTypes : t.quantityTypes = t'.quantityTypes
  dimensions : List.Forall₂ (DimensionEntry.Related RD) t.dimensions t'.dimensions
  units : List.Forall₂ (UnitTemplate.Related RV) t.units t'.units
  constants : List.Forall₂ (ConstantEntry.Related RV) t.constants t'.constants

/-- `t'` is `t` with additional parentheses. -/
def Parenthesises (t t' : UnresolvedTemplates E M) : Prop :=
  UnresolvedTemplates.Related Expr.Parenthesises Expr.Parenthesises t t'

/-- `t'` is `t` with some names written out, according to the definitions of the (expanded) unit system `u`. -/
def WritesOut (u : UnresolvedDefs E M) (t t' : UnresolvedTemplates E M) : Prop :=
  UnresolvedTemplates.Related (Expr.WritesOut u.DimensionBody) (Expr.WritesOut u.ValueBody) t t'

end
end Diman
