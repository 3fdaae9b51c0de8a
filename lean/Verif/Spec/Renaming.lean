import Verif.Model.Resolve
/-!
# Consistent renaming of a unit system (C61)
`ρ` renames dimensions, units (and aliases) and constants wherever they are written; `σ` is what this does to the names of the base
dimensions in the generated code (their names in snake case). Symbols, prefixes, numbers and exponents stay as they are.
-/
namespace Diman
variable {E M : Type} (ρ σ : Str → Str)

/-- A name on a right-hand side. -/
def Atom.rename {C : Type} : Atom C → Atom C
  | .concrete c => .concrete c
  | .other x => .other (ρ x)

/-- A right-hand side; `base` says what happens to what follows `base(`. -/
def Definition.rename {B C : Type} (base : B → B) : Definition E B C → Definition E B C
  | .base b => .base (base b)
  | .expression e => .expression (e.map (Atom.rename ρ))

/-- A dimension statement. -/
def DimensionEntry.rename (d : DimensionEntry E) : DimensionEntry E := ⟨ρ d.name, d.rhs.rename ρ id⟩
/-- A constant statement. -/
def ConstantEntry.rename (c : ConstantEntry E M) : ConstantEntry E M :=
  { name := ρ c.name, rhs := c.rhs.map (Atom.rename ρ), annotation := c.annotation.map ρ }
/-- A unit statement: its name, its aliases, its annotation and its right-hand side. -/
def UnitTemplate.rename (u : UnitTemplate E M) : UnitTemplate E M :=
  { name := ρ u.name, symbol := u.symbol, aliases := u.aliases.map ρ, prefixes := u.prefixes, annotation := u.annotation.map ρ
    definition := u.definition.rename ρ ρ }
/-- A whole unit system. -/
def UnresolvedTemplates.rename (t : UnresolvedTemplates E M) : UnresolvedTemplates E M :=
  { dimensionTypes := t.dimensionTypes, quantityTypes := t.quantityTypes
    dimensions := t.dimensions.map (DimensionEntry.rename ρ)
    units := t.units.map (UnitTemplate.rename ρ)
    constants := t.constants.map (ConstantEntry.rename ρ) }

/-- Prefixed names are prefixed again after the renaming, so `ρ` must keep them so: if `meter` becomes `metre`, then `kilometer` must
become `kilometre`. -/
def UnitTemplate.KeepsPrefixes (u : UnitTemplate E M) : Prop :=
  ∀ p ∈ u.prefixes, ∀ n ∈ u.name :: u.aliases, ρ (p.name ++ n) = p.name ++ ρ n

/-- The exponents of the base dimensions, under their new names. -/
def Dims.rename (d : Dims E) : Dims E := d.map fun kv => (σ kv.1, kv.2)

/-- `D'` is `D` under the new names, up to the order in which things are generated (which follows the names). -/
structure Defs.Renamed (D D' : Defs E M) : Prop where
  dimensionType : D'.dimensionType = D.dimensionType
  quantityType : D'.quantityType = D.quantityType
  baseDimensions : D'.baseDimensions = D.baseDimensions.map σ
  dimensions : D'.dimensions.Perm (D.dimensions.map fun d => ⟨ρ d.name, d.dims.rename σ⟩)
  units : D'.units.Perm (D.units.map fun u => ⟨ρ u.name, u.dims.rename σ, u.mag, u.symbol, u.isBase⟩)
  constants : D'.constants.Perm (D.constants.map fun c => ⟨ρ c.name, c.dims.rename σ, c.mag⟩)

end Diman
