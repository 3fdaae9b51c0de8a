import Verif.Model.Text
import Verif.Model.System
import Verif.Model.Parse
/-!
# The texts of the reported errors
Models crates/diman_unit_system/src/resolve/error.rs, the `Emit` implementations. Simplification: the position of a message (its
spans) is given by the identifiers that are marked, not by line and column; the empty list stands for the whole macro call.
-/
namespace Diman

/-- `proc_macro::Level` of the lines added to an error. -/
inductive NoteLevel where
  | note | help
deriving DecidableEq, Repr

/-- One error shown by the compiler: its text, the identifiers it points at, and the notes and helps below it. -/
structure Message where
  text : Str
  marks : List Str
  notes : List (NoteLevel × Str)
deriving DecidableEq, Repr

/-- `[T]::sort` on distinct identifiers: insertion into a sorted list. -/
def sortInsert (x : Str) : List Str → List Str
  | [] => [x]
  | y :: ys => if Str.lt y x then y :: sortInsert x ys else x :: y :: ys

/-- `[T]::sort` on distinct identifiers (error.rs:111-112 `available_dims.sort()`). -/
def sortIdents (l : List Str) : List Str := l.foldr sortInsert []

/-- `[S]::join` -/
def joinStr (sep : Str) : List Str → Str
  | [] => []
  | [x] => x
  | x :: y :: ys => x ++ sep ++ joinStr sep (y :: ys)

section
variable {E : Type} [Exponent E] [ShowExponent E]

/-- error.rs:113-122, the closure `format`: every available dimension with its exponent, a missing one being zero. -/
def formatDims (available : List Str) (d : Dims E) : Str :=
  joinStr (str!" ") (available.map fun k => k ++ '^' :: ShowExponent.showE ((d.get k).getD Exponent.zero))

/-- error.rs:108, the set of all dimensions of both sides, in first-occurrence order (a `HashSet`: any order, see C48). -/
def availableDims (lhs rhs : Dims E) : List Str := dedup (lhs.map Prod.fst ++ rhs.map Prod.fst)

/-- error.rs:107-124 `format_lhs_rhs_dimensions`, given the set in some order. -/
def formatSides (available : List Str) (lhs rhs : Dims E) : Str × Str :=
  (formatDims (sortIdents available) lhs, formatDims (sortIdents available) rhs)

/-- error.rs:204-209, the closure `name` -/
def Kind.upper : Kind → Str
  | .dimension => str!"Dimension"
  | .unit | .baseUnit => str!"Unit"
  | .constant => str!"Constant"
/-- error.rs:232 `name(kind).to_lowercase()`, also error.rs:247-252 -/
def Kind.lower : Kind → Str
  | .dimension => str!"dimension"
  | .unit | .baseUnit => str!"unit"
  | .constant => str!"constant"
/-- error.rs:210-215, the closure `plural` -/
def Kind.plural : Kind → Str
  | .dimension => str!"Dimensions"
  | .unit | .baseUnit => str!"Units"
  | .constant => str!"Constants"
/-- error.rs:216-221, the closure `allowed_rhs_kinds` -/
def Kind.allowedText : Kind → Str
  | .dimension => str!"other dimensions"
  | .unit | .baseUnit => str!"other units and constants"
  | .constant => str!"other constants and units"

/-- The default names passed to `get_single_ident` (resolve/mod.rs:64-73), which the note of `TypeDefinitionsError::None` repeats. -/
def defaultTypeName (typeName : Str) : Str := if typeName = str!"quantity type" then str!"Quantity" else str!"Dimension"

/-- error.rs:67-102, 126-323, the `emit` functions. `dims` gives the resolved dimensions of a name: the references
`annotation_dims`, `expr_dims` of `ViolatedAnnotationError` point at the resolved items (ident_storage.rs:266-274). -/
def Diag.messages (dims : Str → Dims E) : Diag → List Message
  | .typeMultiple t idents => idents.map fun x =>
      ⟨str!"Multiple definitions for " ++ t ++ str!" \"" ++ x ++ str!"\".", [x], []⟩
  | .typeNone t => [⟨str!"No definition for " ++ t, [],
      [(.note, str!"In order to provide readable error messages, the name must be specified in the macro call."),
       (.help, str!"Consider adding a definition inside the unit_system! macro:\n\t" ++ t ++ ' ' :: defaultTypeName t ++ str!";")]⟩]
  | .violatedAnnotation x a =>
      let sides := formatSides (availableDims (dims a) (dims x)) (dims a) (dims x)
      [⟨str!"Dimension mismatch in expression.", [a],
        [(.help, str!"The annotation on the left-hand side has dimensions " ++ sides.1),
         (.help, str!"but the expression on the right-hand side has dimensions " ++ sides.2)]⟩]
  | .undefinedAnnotation a => [⟨str!"Undefined dimension " ++ a ++ str!" in annotation.", [a],
      [(.note, str!"Annotations using units and constants are not allowed.")]⟩]
  | .undefined idents => idents.map fun x => ⟨str!"Undefined identifier \"" ++ x ++ str!"\".", [x], []⟩
  | .unresolvable idents => idents.map fun x =>
      ⟨str!"Unresolvable definition \"" ++ x ++ str!"\".", [x], [(.help, str!"Remove recursive definitions.")]⟩
  | .multipleDefinitions groups => groups.map fun g =>
      ⟨str!"Identifier \"" ++ g.headD [] ++ str!"\" defined multiple times.", g, []⟩
  | .kindNotAllowed l r lk rk =>
      [⟨lk.upper ++ ' ' :: l ++ str!" is defined in terms of the " ++ rk.lower ++ ' ' :: r ++ str!".", [l, r],
        [(.note, lk.plural ++ str!" can only be defined in terms of " ++ lk.allowedText ++ str!".")]⟩]
  | .wrongTypeInAnnotation a k =>
      [⟨str!"Type error in annotation: Expected dimension, found " ++ k.lower ++ str!" '" ++ a ++ str!"'.", [a],
        [(.note, str!"Annotations can only be done using dimensions.")]⟩]
  | .multipleBaseUnits d u =>
      [⟨'\'' :: u ++ str!"' is defined to be a base unit for dimension '" ++ d ++
          str!"', but there already is a base unit for this dimension.", [u],
        [(.note, str!"There can only be one base unit per base dimension.")]⟩]
  | .baseUnitForNonBase d u =>
      [⟨'\'' :: u ++ str!"' is defined to be a base unit for dimension '" ++ d ++ str!"', but '" ++ d ++
          str!"' is not a base dimension.", [u],
        [(.note, str!"Base units can only be defined for base dimensions.")]⟩]
  | .symbolMultiple s units => [⟨str!"Symbol '" ++ s ++ str!"' is used for multiple units.", units, []⟩]
  | .noSymbolForBaseUnit u =>
      [⟨str!"Unit " ++ u ++ str!" is declared as a base unit but does not define its symbol.", [u],
        [(.note, str!"Declare the symbol using\n`#[symbol(...)]`")]⟩]

variable {M : Type} [MagOps E M]

/-- The resolved dimensions of a name, as the annotation errors show them (ident_storage.rs:258-282). -/
def resolvedDims (res : BMap (ResolvedItem E M)) (x : Str) : Dims E :=
  match res.get x with
  | some r => r.dimensions.dims
  | none => []

/-- resolve/mod.rs:63-100: everything `resolve` shows, in the order it shows it; `none` if it panics. -/
def emitted (u : UnresolvedDefs E M) : Option (List Message) := do
  let (_, errors) ← resolveDefs u
  let (res, _) ← resolveItems (allItems u)
  return errors.flatMap (Diag.messages (resolvedDims res))

/-- lib.rs:13-26: the errors the macro shows for its input. A syntax error is shown by syn (its text is not modelled). -/
def macroMessages [ReadExponent E] (mag : Number → M) (factor : Prefix → M) (tokens : List Tok) : MacroResult (List Message) :=
  match parseSystem (ReadExponent.rational E) tokens with
  | none => .syntaxError
  | some t => match readTemplates (E := E) mag t with
    | none => .panic
    | some t => match emitted (UnresolvedTemplates.expand (MagOps.one E) factor t) with
      | none => .panic
      | some l => .done l

end
end Diman
