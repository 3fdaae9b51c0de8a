import Verif.Model.Messages
import Verif.Spec.Resolve
import Verif.Props.C14
/-!
# What the macro has to say about a unit system
One constructor per kind of complaint: when it is due, and the error the user is to read (text, marked identifiers, notes).
-/
namespace Diman

/-- What a name stands for, in the user's words. -/
inductive Category where
  | dimension | unit | constant
deriving DecidableEq

/-- At the beginning of a sentence. -/
def Category.capital : Category → Str
  | .dimension => str!"Dimension"
  | .unit => str!"Unit"
  | .constant => str!"Constant"
/-- Inside a sentence. -/
def Category.word : Category → Str
  | .dimension => str!"dimension"
  | .unit => str!"unit"
  | .constant => str!"constant"
/-- The rule for definitions of the category. -/
def Category.rule : Category → Str
  | .dimension => str!"Dimensions can only be defined in terms of other dimensions."
  | .unit => str!"Units can only be defined in terms of other units and constants."
  | .constant => str!"Constants can only be defined in terms of other constants and units."

section
variable {E M : Type}

/-- The name `x` stands for something of the category. -/
def Unresolved.Is (u : UnresolvedDefs E M) : Category → Str → Prop
  | .dimension, x => ∃ d ∈ u.dimensions, d.name = x
  | .unit, x => ∃ v ∈ u.units, v.name = x
  | .constant, x => ∃ c ∈ u.constants, c.name = x

/-- The definition of `x`, something of the category `k`, mentions `y` of category `l` against the rules: dimensions are defined from
dimensions, base units from a dimension, everything else from units and constants. -/
def Unresolved.Misuses (u : UnresolvedDefs E M) (x : Str) : Category → Str → Category → Prop
  | .dimension, y, l => u.Is l y ∧ l ≠ .dimension ∧ ∃ d ∈ u.dimensions, d.name = x ∧ y ∈ d.mentions
  | .unit, y, l => u.Is l y ∧ ((l ≠ .dimension ∧ ∃ v ∈ u.units, v.name = x ∧ v.definition = .base y) ∨
      (l = .dimension ∧ ∃ v ∈ u.units, v.name = x ∧ ∃ e, v.definition = .expression e ∧ y ∈ e.idents))
  | .constant, y, l => u.Is l y ∧ l = .dimension ∧ ∃ c ∈ u.constants, c.name = x ∧ y ∈ c.mentions

variable [Exponent E] [ShowExponent E]

/-- The exponents of `d` in the base dimensions `keys`, as `k^e k'^e' …`; a base dimension `d` does not mention has exponent zero. -/
def Dims.listed (d : Dims E) : List Str → Str
  | [] => []
  | [k] => k ++ '^' :: ShowExponent.showE ((Dims.get d k).getD Exponent.zero)
  | k :: k' :: ks => k ++ '^' :: ShowExponent.showE ((Dims.get d k).getD Exponent.zero) ++ ' ' :: Dims.listed d (k' :: ks)

/-- The statements `t`, which introduce the definitions `u` of which `defs` could be computed, give rise to this error. -/
inductive Complaint (t : UnresolvedTemplates E M) (u : UnresolvedDefs E M) (defs : Defs E M) : Message → Prop
  | noQuantityType : t.quantityTypes = [] → Complaint t u defs ⟨str!"No definition for quantity type", [],
      [(.note, str!"In order to provide readable error messages, the name must be specified in the macro call."),
       (.help, str!"Consider adding a definition inside the unit_system! macro:\n\tquantity type Quantity;")]⟩
  | noDimensionType : t.dimensionTypes = [] → Complaint t u defs ⟨str!"No definition for dimension type", [],
      [(.note, str!"In order to provide readable error messages, the name must be specified in the macro call."),
       (.help, str!"Consider adding a definition inside the unit_system! macro:\n\tdimension type Dimension;")]⟩
  | severalQuantityTypes (x : Str) : 1 < t.quantityTypes.length → x ∈ t.quantityTypes →
      Complaint t u defs ⟨str!"Multiple definitions for quantity type \"" ++ x ++ str!"\".", [x], []⟩
  | severalDimensionTypes (x : Str) : 1 < t.dimensionTypes.length → x ∈ t.dimensionTypes →
      Complaint t u defs ⟨str!"Multiple definitions for dimension type \"" ++ x ++ str!"\".", [x], []⟩
  /-- a base unit statement for a base dimension that has a base unit already -/
  | secondBaseUnit (before after : List (UnitTemplate E M)) (v : UnitTemplate E M) (d : Str) : t.units = before ++ v :: after →
      v.definition = .base d → (∃ e ∈ t.dimensions, e.name = d ∧ e.rhs = .base ()) → (∃ w ∈ before, w.definition = .base d) →
      Complaint t u defs ⟨str!"'" ++ v.name ++ str!"' is defined to be a base unit for dimension '" ++ d ++
        str!"', but there already is a base unit for this dimension.", [v.name],
        [(.note, str!"There can only be one base unit per base dimension.")]⟩
  | notABaseDimension (v : UnitTemplate E M) (d : Str) : v ∈ t.units → v.definition = .base d →
      (¬ ∃ e ∈ t.dimensions, e.name = d ∧ e.rhs = .base ()) →
      Complaint t u defs ⟨str!"'" ++ v.name ++ str!"' is defined to be a base unit for dimension '" ++ d ++ str!"', but '" ++ d ++
        str!"' is not a base dimension.", [v.name], [(.note, str!"Base units can only be defined for base dimensions.")]⟩
  | symbol (s : Str) : 1 < (u.units.filter fun x => x.symbol = some s).length →
      Complaint t u defs ⟨str!"Symbol '" ++ s ++ str!"' is used for multiple units.",
        (u.units.filter fun x => x.symbol = some s).map UnitEntry.name, []⟩
  | kind (x y : Str) (k l : Category) : u.Misuses x k y l →
      Complaint t u defs ⟨k.capital ++ str!" " ++ x ++ str!" is defined in terms of the " ++ l.word ++ str!" " ++ y ++ str!".", [x, y],
        [(.note, k.rule)]⟩
  | recursive (x y : Str) : DependsOn u.definitions x y → DependsOn u.definitions y y →
      Complaint t u defs ⟨str!"Unresolvable definition \"" ++ x ++ str!"\".", [x], [(.help, str!"Remove recursive definitions.")]⟩
  /-- an annotation that is a unit or a constant -/
  | annotationKind (x a : Str) (k : Category) : u.Annotated x a → x ∈ defs.names → a ∈ defs.names → u.Is k a → k ≠ .dimension →
      Complaint t u defs ⟨str!"Type error in annotation: Expected dimension, found " ++ k.word ++ str!" '" ++ a ++ str!"'.", [a],
        [(.note, str!"Annotations can only be done using dimensions.")]⟩
  | annotationUndefined (x a : Str) : u.Annotated x a → x ∈ defs.names → a ∉ defs.names →
      Complaint t u defs ⟨str!"Undefined dimension " ++ a ++ str!" in annotation.", [a],
        [(.note, str!"Annotations using units and constants are not allowed.")]⟩
  /-- an annotation some exponent of which the definition does not have; `keys` are all base dimensions either side mentions -/
  | annotationViolated (x a : Str) (D : DimensionDef E) (d : Dims E) (keys : List Str) : u.Annotated x a → D ∈ defs.dimensions → D.name = a →
      defs.HasDims x d → (∃ k e, (k, e) ∈ D.dims ∧ Dims.get d k ≠ some e) →
      (keys.Pairwise fun p q => Str.lt p q = true) → (∀ k, k ∈ keys ↔ k ∈ D.dims.map Prod.fst ∨ k ∈ d.map Prod.fst) →
      Complaint t u defs ⟨str!"Dimension mismatch in expression.", [a],
        [(.help, str!"The annotation on the left-hand side has dimensions " ++ D.dims.listed keys),
         (.help, str!"but the expression on the right-hand side has dimensions " ++ d.listed keys)]⟩
  | noSymbol (U : UnitDef E M) : U ∈ defs.units → U.isBase = true → U.symbol = none →
      Complaint t u defs ⟨str!"Unit " ++ U.name ++ str!" is declared as a base unit but does not define its symbol.", [U.name],
        [(.note, str!"Declare the symbol using\n`#[symbol(...)]`")]⟩

end
end Diman
