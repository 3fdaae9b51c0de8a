import Verif.Model.Parse
/-!
# What is left of a unit system when the numbers are forgotten
Specification vocabulary for C36 and C45: the same statements and definitions with every numeric factor replaced by `()`.
-/
namespace Diman
variable {E M : Type}

/-- There is exactly one way to compute with forgotten numbers. -/
instance unitMagOps : MagOps E Unit where
  one := ()
  mul _ _ := ()
  div _ _ := ()
  pow _ _ := ()
  isOne _ := true

def Expr.shape (e : Expr (Atom M) E) : Expr (Atom Unit) E := e.map (Atom.mapConcrete fun _ => ())
def Definition.shape {B : Type} : Definition E B M → Definition E B Unit
  | .base b => .base b
  | .expression e => .expression e.shape
def ConstantEntry.shape (c : ConstantEntry E M) : ConstantEntry E Unit := ⟨c.name, c.rhs.shape, c.annotation⟩
def UnitTemplate.shape (u : UnitTemplate E M) : UnitTemplate E Unit :=
  ⟨u.name, u.symbol, u.aliases, u.prefixes, u.annotation, u.definition.shape⟩
def UnitEntry.shape (u : UnitEntry E M) : UnitEntry E Unit :=
  ⟨u.name, u.symbol, u.annotation, u.definition.shape, u.autogeneratedFrom⟩
/-- A unit system without its numbers. -/
def UnresolvedTemplates.shape (t : UnresolvedTemplates E M) : UnresolvedTemplates E Unit :=
  ⟨t.dimensionTypes, t.quantityTypes, t.dimensions, t.units.map UnitTemplate.shape, t.constants.map ConstantEntry.shape⟩
def UnresolvedDefs.shape (t : UnresolvedDefs E M) : UnresolvedDefs E Unit :=
  ⟨t.dimensionTypes, t.quantityTypes, t.dimensions, t.units.map UnitEntry.shape, t.constants.map ConstantEntry.shape⟩
/-- The generated definitions without their conversion factors: names, dimensions, symbols, base flags. -/
def Defs.shape (d : Defs E M) : Defs E Unit :=
  { dimensionType := d.dimensionType
    quantityType := d.quantityType
    dimensions := d.dimensions
    units := d.units.map fun u => ⟨u.name, u.dims, (), u.symbol, u.isBase⟩
    constants := d.constants.map fun c => ⟨c.name, c.dims, ()⟩
    baseDimensions := d.baseDimensions }

end Diman
