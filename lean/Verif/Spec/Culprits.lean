import Verif.Spec.WellFormed
/-!
# Who is to blame (C81)
-/
namespace Diman

/-- The names whose definitions a report complains about. `Foo` in "Identifier Foo is not defined" has no definition; a statement that mentions it is not
`Innocent` for that reason. A wrong annotation is named, but not where it stands (see `Innocent.annotations`). -/
def Diag.blames : Diag → List Str
  | .typeNone _ | .typeMultiple _ _ | .undefined _ | .wrongTypeInAnnotation _ _ | .undefinedAnnotation _ => []
  | .multipleBaseUnits _ unit | .baseUnitForNonBase _ unit | .noSymbolForBaseUnit unit => [unit]
  | .symbolMultiple _ units => units
  | .multipleDefinitions groups => groups.flatten
  | .kindNotAllowed lhs _ _ _ => [lhs]
  | .unresolvable idents => idents
  | .violatedAnnotation ident _ => [ident]

/-- `r` consists of some of the statements of `t`, with everything they mention, and none of them is the subject of a report in `ds`. -/
structure Innocent {E M : Type} (t r : UnresolvedTemplates E M) (ds : List Diag) : Prop where
  dimensions : r.dimensions.Subperm t.dimensions
  units : r.units.Subperm t.units
  constants : r.constants.Subperm t.constants
  /-- one quantity type and one dimension type -/
  quantityType : r.quantityTypes.length = 1
  dimensionType : r.dimensionTypes.length = 1
  /-- what they mention, in definitions and annotations, is defined by them -/
  closed : ∀ x mentions, (x, mentions) ∈ r.written → ∀ y ∈ mentions, y ∈ r.written.map Prod.fst
  annotated : ∀ x a, r.Claims x a → a ∈ r.written.map Prod.fst
  /-- no report is about a name they define (as a unit, a prefixed unit, an alias, …), or about one of their annotations -/
  names : ∀ d ∈ ds, ∀ x ∈ d.blames, x ∉ r.written.map Prod.fst
  annotations : ∀ a kind, .wrongTypeInAnnotation a kind ∈ ds → ∀ x, ¬ r.Claims x a

end Diman
