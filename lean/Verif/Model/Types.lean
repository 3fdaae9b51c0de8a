import Verif.Model.Dims
import Verif.Model.Snake
/-!
# Statements of a unit system and template expansion
Models crates/diman_unit_system/src/types/mod.rs and types/prefixes.rs.
-/
namespace Diman

/-- types/mod.rs:22-26 `enum Factor<C>`: a concrete value or another identifier (called `Atom` here, `Factor` being
expression.rs's type). -/
inductive Atom (C : Type) where
  | concrete (c : C)
  | other (ident : Str)

/-- types/mod.rs:28-35 `Factor::map_concrete` -/
def Atom.mapConcrete {C D : Type} (f : C → D) : Atom C → Atom D
  | .concrete c => .concrete (f c)
  | .other x => .other x

/-- types/mod.rs:37-41 `enum Definition<Base, C>` -/
inductive Definition (E B C : Type) where
  | base (b : B)
  | expression (e : Expr (Atom C) E)

/-- types/mod.rs:45-49 `struct DimensionEntry` (`One` carries no data). -/
structure DimensionEntry (E : Type) where
  name : Str
  rhs : Definition E Unit Unit

/-- types/mod.rs:51-55 `is_base_dimension` -/
def DimensionEntry.isBase {E : Type} (d : DimensionEntry E) : Bool :=
  match d.rhs with
  | .base _ => true
  | .expression _ => false

/-- types/mod.rs:73-78 `struct ConstantEntry` -/
structure ConstantEntry (E M : Type) where
  name : Str
  rhs : Expr (Atom M) E
  annotation : Option Str

/-- prefixes.rs:58-76 `enum Prefix` -/
inductive Prefix where
  | exa | peta | tera | giga | mega | kilo | hecto | deca | deci | centi | milli | micro | nano | pico | femto | atto
deriving DecidableEq, Repr

/-- prefixes.rs:82-101: the list in `impl From<MetricPrefixes> for Vec<Prefix>`. -/
def Prefix.all : List Prefix :=
  [.exa, .peta, .tera, .giga, .mega, .kilo, .hecto, .deca, .deci, .centi, .milli, .micro, .nano, .pico, .femto, .atto]

/-- prefixes.rs:58-76, third column: `Prefix::name` -/
def Prefix.name : Prefix → Str
  | .exa => str!"exa" | .peta => str!"peta" | .tera => str!"tera" | .giga => str!"giga" | .mega => str!"mega"
  | .kilo => str!"kilo" | .hecto => str!"hecto" | .deca => str!"deca" | .deci => str!"deci" | .centi => str!"centi"
  | .milli => str!"milli" | .micro => str!"micro" | .nano => str!"nano" | .pico => str!"pico" | .femto => str!"femto"
  | .atto => str!"atto"

/-- prefixes.rs:58-76, second column: the keyword accepted by `impl Parse for Prefix`. -/
def Prefix.keyword : Prefix → Str
  | .exa => str!"exa" | .peta => str!"peta" | .tera => str!"tera" | .giga => str!"giga" | .mega => str!"mega"
  | .kilo => str!"kilo" | .hecto => str!"hecto" | .deca => str!"deca" | .deci => str!"deci" | .centi => str!"centi"
  | .milli => str!"milli" | .micro => str!"micro" | .nano => str!"nano" | .pico => str!"pico" | .femto => str!"femto"
  | .atto => str!"atto"

/-- prefixes.rs:58-76, fourth column: `Prefix::short` -/
def Prefix.short : Prefix → Str
  | .exa => str!"E" | .peta => str!"P" | .tera => str!"T" | .giga => str!"G" | .mega => str!"M"
  | .kilo => str!"k" | .hecto => str!"h" | .deca => str!"da" | .deci => str!"d" | .centi => str!"c"
  | .milli => str!"m" | .micro => str!"μ" | .nano => str!"n" | .pico => str!"p" | .femto => str!"f"
  | .atto => str!"a"

/-- prefixes.rs:58-76, fifth column: the decimal literal of the factor (`1e18`, ..., `1e-18`), exactly. -/
def Prefix.literal : Prefix → ℚ
  | .exa => 1000000000000000000 | .peta => 1000000000000000 | .tera => 1000000000000 | .giga => 1000000000
  | .mega => 1000000 | .kilo => 1000 | .hecto => 100 | .deca => 10 | .deci => 1 / 10 | .centi => 1 / 100
  | .milli => 1 / 1000 | .micro => 1 / 1000000 | .nano => 1 / 1000000000 | .pico => 1 / 1000000000000
  | .femto => 1 / 1000000000000000 | .atto => 1 / 1000000000000000000

/-- prefixes.rs:29-35 `Prefix::factor`: `Magnitude::from_f64` of the literal (Rust rounds literals correctly). -/
def Prefix.factor (p : Prefix) : Magnitude := Magnitude.fromF64 (.num false (f64Fmt.round p.literal))

/-- prefixes.rs:82-106 `impl From<MetricPrefixes> for Vec<Prefix>`: all but the skipped ones. -/
def metricPrefixes (skip : List Prefix) : List Prefix := Prefix.all.filter fun p => !skip.contains p

/-- types/mod.rs:80-88 `struct UnitTemplate` -/
structure UnitTemplate (E M : Type) where
  name : Str
  symbol : Option Str
  aliases : List Str
  prefixes : List Prefix
  annotation : Option Str
  definition : Definition E Str M

/-- types/mod.rs:90-97 `struct UnitEntry` -/
structure UnitEntry (E M : Type) where
  name : Str
  symbol : Option Str
  annotation : Option Str
  definition : Definition E Str M
  autogeneratedFrom : Option Str

namespace UnitTemplate
variable {E M : Type}

/-- types/mod.rs:100-109 `format_name` -/
def formatName (u : UnitTemplate E M) (pre : Option Prefix) (al : Option Str) : Str :=
  let name := match al with
    | none => u.name
    | some a => a
  match pre with
  | none => name
  | some p => p.name ++ name

/-- types/mod.rs:111-126 `format_symbol` -/
def formatSymbol (u : UnitTemplate E M) (pre : Option Prefix) (al : Option Str) : Option Str :=
  if al.isSome then none
  else match pre with
    | none => u.symbol
    | some p => u.symbol.map fun s => p.short ++ s

/-- types/mod.rs:128-147 `get_definition`; `one` and `factor` are `Magnitude::from_f64(1.0)` and `Prefix::factor`. -/
def getDefinition (one : M) (factor : Prefix → M) (u : UnitTemplate E M) (pre : Option Prefix) (al : Option Str) :
    Definition E Str M :=
  let f := match pre with
    | some p => factor p
    | none => one
  if al.isNone && pre.isNone then u.definition
  else .expression (.binary (.value (.value (.concrete f))) .mul (.value (.other u.name)))

/-- types/mod.rs:149-165 `expand_prefix_and_alias` -/
def expandOne (one : M) (factor : Prefix → M) (u : UnitTemplate E M) (pre : Option Prefix) (al : Option Str) : UnitEntry E M :=
  { name := u.formatName pre al
    symbol := u.formatSymbol pre al
    definition := u.getDefinition one factor pre al
    annotation := u.annotation
    autogeneratedFrom := if pre.isSome || al.isSome then some u.name else none }

/-- types/mod.rs:167-180 `expand`: every prefix (and none) with every alias (and none). -/
def expand (one : M) (factor : Prefix → M) (u : UnitTemplate E M) : List (UnitEntry E M) :=
  (u.prefixes.map some ++ [none]).flatMap fun pre =>
    (u.aliases.map some ++ [none]).map fun al => u.expandOne one factor pre al

end UnitTemplate

/-- types/mod.rs:183-189 `struct Unresolved<U>` -/
structure Unresolved (E M U : Type) where
  dimensionTypes : List Str
  quantityTypes : List Str
  dimensions : List (DimensionEntry E)
  units : List U
  constants : List (ConstantEntry E M)

/-- types/mod.rs:191 `UnresolvedTemplates` -/
abbrev UnresolvedTemplates (E M : Type) := Unresolved E M (UnitTemplate E M)
/-- types/mod.rs:192 `UnresolvedDefs` -/
abbrev UnresolvedDefs (E M : Type) := Unresolved E M (UnitEntry E M)

/-- types/mod.rs:195-208 `expand_templates` -/
def UnresolvedTemplates.expand {E M : Type} (one : M) (factor : Prefix → M) (t : UnresolvedTemplates E M) : UnresolvedDefs E M :=
  { dimensionTypes := t.dimensionTypes
    quantityTypes := t.quantityTypes
    dimensions := t.dimensions
    units := t.units.flatMap fun u => u.expand one factor
    constants := t.constants }

end Diman
