import Verif.Model.System
import Verif.Model.Lexer
/-!
# Identifiers the macro makes up
The macro makes identifiers from strings in three places: names and symbols of prefixed units, and the fields of the dimension type. `Ident::new` panics if the
string is no identifier; in particular it refuses raw identifiers (`r#in`), which it prints with their `r#`. The rest of the model does without these panics
(`runUnitSystem`); C83 relates the two. An identifier is the string it prints as. Simplification: every non-ASCII character counts as `XID_Start` (see
`Model/Lexer`).
-/
namespace Diman

/-- proc_macro's `Ident::new`: the string itself, if it is an identifier without `r#` (keywords and `_` are); otherwise a panic. -/
def identNew : Str → Option Str
  | [] => none
  | c :: s => if isIdentStart c && s.all isIdentCont then some (c :: s) else none

section
variable {E M : Type}

/-- types/mod.rs:100-109 `format_name`, with the panic -/
def UnitTemplate.formatNameP (u : UnitTemplate E M) (pre : Option Prefix) (al : Option Str) : Option Str :=
  let name := match al with
    | none => u.name
    | some a => a
  match pre with
  | none => some name
  | some p => identNew (p.name ++ name)

/-- types/mod.rs:111-126 `format_symbol`, with the panic -/
def UnitTemplate.formatSymbolP (u : UnitTemplate E M) (pre : Option Prefix) (al : Option Str) : Option (Option Str) :=
  if al.isSome then some none
  else match pre with
    | none => some u.symbol
    | some p => match u.symbol with
      | none => some none
      | some s => (identNew (p.short ++ s)).map some

/-- types/mod.rs:149-165 `expand_prefix_and_alias`, with the panics -/
def UnitTemplate.expandOneP (one : M) (factor : Prefix → M) (u : UnitTemplate E M) (pre : Option Prefix) (al : Option Str) : Option (UnitEntry E M) := do
  let name ← u.formatNameP pre al
  let symbol ← u.formatSymbolP pre al
  return {
    name := name
    symbol := symbol
    definition := u.getDefinition one factor pre al
    annotation := u.annotation
    autogeneratedFrom := if pre.isSome || al.isSome then some u.name else none }

/-- types/mod.rs:167-180 `expand`, with the panics -/
def UnitTemplate.expandP (one : M) (factor : Prefix → M) (u : UnitTemplate E M) : Option (List (UnitEntry E M)) :=
  ((u.prefixes.map some ++ [none]).mapM fun pre => (u.aliases.map some ++ [none]).mapM fun al => u.expandOneP one factor pre al).map List.flatten

/-- types/mod.rs:195-208 `expand_templates`, with the panics -/
def UnresolvedTemplates.expandP (one : M) (factor : Prefix → M) (t : UnresolvedTemplates E M) : Option (UnresolvedDefs E M) := do
  let units ← t.units.mapM fun u => u.expandP one factor
  return { dimensionTypes := t.dimensionTypes
           quantityTypes := t.quantityTypes
           dimensions := t.dimensions
           units := units.flatten
           constants := t.constants }

/-- base_dimension.rs:22-25 `to_snakecase` of all base dimensions (resolve/mod.rs:128-141), with the panic -/
def baseDimensionsP (dims : List (DimensionEntry E)) : Option (List Str) :=
  (dims.filter DimensionEntry.isBase).mapM fun d => identNew (toSnakecase d.name)

variable [Exponent E] [MagOps E M]

/-- lib.rs:13-19 `run_unit_system`: expansion and resolution, with the panics of `Ident::new`. `resolveDefs` calls `to_snakecase` on base dimensions
only, all of which `baseDimensionsP` covers. -/
def runIdents (factor : Prefix → M) (t : UnresolvedTemplates E M) : Option (Defs E M × List Diag) := do
  let u ← UnresolvedTemplates.expandP (MagOps.one E) factor t
  let _ ← baseDimensionsP u.dimensions
  resolveDefs u

end
end Diman
