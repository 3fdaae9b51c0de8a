import Verif.Spec.WellFormed
/-!
# Putting unit systems together (C82)
-/
namespace Diman

/-- The statements of `t`, then those of `a`. -/
def Unresolved.plus {E M : Type} (t a : UnresolvedTemplates E M) : UnresolvedTemplates E M where
  dimensionTypes := t.dimensionTypes ++ a.dimensionTypes
  quantityTypes := t.quantityTypes ++ a.quantityTypes
  dimensions := t.dimensions ++ a.dimensions
  units := t.units ++ a.units
  constants := t.constants ++ a.constants

/-- `a` and `b` have nothing in common that has to be unique: no name, no symbol, and no base dimension for which both declare a base unit. -/
structure Unresolved.Apart {E M : Type} (a b : UnresolvedTemplates E M) : Prop where
  names : ∀ x ∈ a.written.map Prod.fst, x ∉ b.written.map Prod.fst
  symbols : ∀ s ∈ a.units.flatMap UnitTemplate.allSymbols, s ∉ b.units.flatMap UnitTemplate.allSymbols
  baseUnits : ∀ d ∈ a.units.filterMap UnitTemplate.baseOf, d ∉ b.units.filterMap UnitTemplate.baseOf

end Diman
