import Verif.Spec.Resolve
/-!
# Well-formed unit systems (C80)
What a list of statements has to satisfy to be a unit system, in terms of the statements as written. Nothing here refers to the expansion of prefixes and
aliases, to the resolver or to its errors, and no conversion factor occurs.
-/
namespace Diman
open LawfulExponent

section
variable {E M : Type}

/-- The identifiers on the right-hand side of a unit statement (for a base unit: its dimension). -/
def UnitTemplate.uses (v : UnitTemplate E M) : List Str :=
  match v.definition with
  | .base d => [d]
  | .expression e => e.idents

/-- The dimension a base unit is declared for. -/
def UnitTemplate.baseOf (v : UnitTemplate E M) : Option Str :=
  match v.definition with
  | .base d => some d
  | .expression _ => none

/-- The further names of a unit statement: its aliases, and every prefix in front of the name and of every alias. -/
def UnitTemplate.variants (v : UnitTemplate E M) : List Str :=
  v.aliases ++ v.prefixes.flatMap fun p => (v.name :: v.aliases).map (p.name ++ ·)

/-- The symbols of a unit statement: its own, and every prefix in front of it. -/
def UnitTemplate.allSymbols (v : UnitTemplate E M) : List Str :=
  match v.symbol with
  | none => []
  | some s => s :: v.prefixes.map (·.short ++ s)

/-- Everything the statements define, with the names each definition uses. A variant of a unit is defined from the unit. -/
def Unresolved.written (t : UnresolvedTemplates E M) : List (Str × List Str) :=
  t.dimensions.map (fun d => (d.name, d.mentions)) ++
  t.units.flatMap (fun v => (v.name, v.uses) :: v.variants.map fun n => (n, [v.name])) ++
  t.constants.map (fun c => (c.name, c.mentions))

/-- `y` is the name of a unit, of a variant of a unit, or of a constant. -/
def Unresolved.Measures (t : UnresolvedTemplates E M) (y : Str) : Prop :=
  (∃ v ∈ t.units, y = v.name ∨ y ∈ v.variants) ∨ ∃ c ∈ t.constants, y = c.name

/-- The unit (or variant of a unit) or constant `x` is annotated with `a`. -/
def Unresolved.Claims (t : UnresolvedTemplates E M) (x a : Str) : Prop :=
  (∃ v ∈ t.units, (x = v.name ∨ x ∈ v.variants) ∧ v.annotation = some a) ∨ ∃ c ∈ t.constants, x = c.name ∧ c.annotation = some a

/-- `x` is the base dimension with field `k`, or its definition leads there. -/
def Unresolved.Reaches (t : UnresolvedTemplates E M) (x k : Str) : Prop :=
  ∃ b ∈ t.dimensions, b.rhs = .base () ∧ toSnakecase b.name = k ∧ (x = b.name ∨ DependsOn t.written x b.name)

variable [Exponent E] [LawfulExponent E]

/-- `ρ x k` is the exponent of base dimension `k` in `x`: every statement holds as an equation between dimensions. -/
structure Unresolved.Balanced (t : UnresolvedTemplates E M) (ρ : Str → Str → ℚ) : Prop where
  baseDimension : ∀ d ∈ t.dimensions, d.rhs = .base () → ∀ k, ρ d.name k = if k = toSnakecase d.name then 1 else 0
  dimension : ∀ d ∈ t.dimensions, ∀ e, d.rhs = .expression e → ∀ k, ρ d.name k = e.specExpo (Atom.expo ρ) k
  baseUnit : ∀ v ∈ t.units, ∀ d, v.definition = .base d → ∀ k, ρ v.name k = ρ d k
  unit : ∀ v ∈ t.units, ∀ e, v.definition = .expression e → ∀ k, ρ v.name k = e.specExpo (Atom.expo ρ) k
  variant : ∀ v ∈ t.units, ∀ n ∈ v.variants, ∀ k, ρ n k = ρ v.name k
  constant : ∀ c ∈ t.constants, ∀ k, ρ c.name k = c.rhs.specExpo (Atom.expo ρ) k

/-- The statements are a unit system. -/
structure Unresolved.WellFormed (t : UnresolvedTemplates E M) : Prop where
  /-- one quantity type and one dimension type -/
  quantityType : t.quantityTypes.length = 1
  dimensionType : t.dimensionTypes.length = 1
  /-- no name and no symbol twice -/
  names : (t.written.map Prod.fst).Nodup
  symbols : (t.units.flatMap UnitTemplate.allSymbols).Nodup
  /-- dimensions are defined from dimensions -/
  dimensions : ∀ d ∈ t.dimensions, ∀ y ∈ d.mentions, ∃ d' ∈ t.dimensions, d'.name = y
  /-- units and constants are defined from units and constants -/
  units : ∀ v ∈ t.units, ∀ e, v.definition = .expression e → ∀ y ∈ e.idents, t.Measures y
  constants : ∀ c ∈ t.constants, ∀ y ∈ c.mentions, t.Measures y
  /-- base units have a symbol and are units of base dimensions, one for each at most -/
  baseUnits : ∀ v ∈ t.units, ∀ d, v.definition = .base d → v.symbol ≠ none ∧ ∃ b ∈ t.dimensions, b.name = d ∧ b.rhs = .base ()
  oneBaseUnit : (t.units.filterMap UnitTemplate.baseOf).Nodup
  /-- nothing is defined from itself -/
  acyclic : ∀ x, ¬ DependsOn t.written x x
  /-- an annotation is a dimension; every base dimension it leads to is one `x` leads to, with the same exponent (this is the rule of the code; F1 and F2 say how
  it differs from equality of the dimensions) -/
  annotations : ∀ x a, t.Claims x a → (∃ d ∈ t.dimensions, d.name = a) ∧
    ∀ k, t.Reaches a k → t.Reaches x k ∧ ∀ ρ, t.Balanced ρ → ρ x k = ρ a k

/-- Every exponent literal is in normal form. Always true with integer exponents. -/
def Unresolved.CanonicalExponents (t : UnresolvedTemplates E M) : Prop :=
  (∀ d ∈ t.dimensions, d.rhs.AllExp (Canon : E → Prop)) ∧ (∀ x ∈ t.units, x.definition.AllExp (Canon : E → Prop)) ∧
    (∀ c ∈ t.constants, c.rhs.AllExp (Canon : E → Prop))

/-! ### Integer exponents that fit -/

/-- An exponent the macro can store: an `i64`. -/
def InI64 (q : ℚ) : Prop := -2 ^ 63 ≤ q ∧ q ≤ 2 ^ 63 - 1

mutual
/-- No step of the computation of the exponents of an expression leaves the range. `ρ` gives the exponents of the leaves. A quotient is computed as a product with
the inverse. -/
def Expr.Fits {T : Type} (ρ : T → Str → ℚ) : Expr T E → Prop
  | .value f => f.Fits ρ
  | .binary l .mul r => l.Fits ρ ∧ r.Fits ρ ∧ ∀ k, InI64 (l.specExpo ρ k + r.specExpo ρ k)
  | .binary l .div r => l.Fits ρ ∧ r.Fits ρ ∧ ∀ k, InI64 (-r.specExpo ρ k) ∧ InI64 (l.specExpo ρ k - r.specExpo ρ k)
def Factor.Fits {T : Type} (ρ : T → Str → ℚ) : Factor T E → Prop
  | .value _ => True
  | .power v p => ∀ k, InI64 (ρ v k * val p)
  | .paren e => e.Fits ρ
end

/-- No exponent in any statement leaves the range. -/
structure Unresolved.Fits (t : UnresolvedTemplates E M) (ρ : Str → Str → ℚ) : Prop where
  dimension : ∀ d ∈ t.dimensions, ∀ e, d.rhs = .expression e → e.Fits (Atom.expo ρ)
  unit : ∀ v ∈ t.units, ∀ e, v.definition = .expression e → e.Fits (Atom.expo ρ)
  constant : ∀ c ∈ t.constants, c.rhs.Fits (Atom.expo ρ)

end
end Diman
