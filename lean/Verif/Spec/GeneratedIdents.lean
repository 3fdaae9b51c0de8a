import Verif.Model.Resolve
/-!
# The identifiers of generated definitions (C83)
-/
namespace Diman

/-- All identifiers of the generated definitions: those that are written as given or made up satisfy `P`, the fields of the dimension type `Q`. -/
structure Defs.IdentifiersAre {E M : Type} (P Q : Str → Prop) (d : Defs E M) : Prop where
  types : P d.dimensionType ∧ P d.quantityType
  dimensions : ∀ D ∈ d.dimensions, P D.name
  units : ∀ U ∈ d.units, P U.name ∧ ∀ s, U.symbol = some s → P s
  constants : ∀ C ∈ d.constants, P C.name
  fields : ∀ f ∈ d.baseDimensions, Q f

end Diman
