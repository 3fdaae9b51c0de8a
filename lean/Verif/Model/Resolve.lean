import Verif.Model.Types
/-!
# Resolution
Models crates/diman_unit_system/src/resolve/{mod.rs,ident_storage.rs}. Diagnostics are collected in a list instead of being
emitted; `none` is a panic. `HashMap`/`HashSet` are association lists in insertion order, `BTreeMap<Ident, _>` is a sorted
association list.
-/
namespace Diman

/-- ident_storage.rs:22-29 `enum Kind` -/
inductive Kind where
  | dimension | baseUnit | unit | constant
deriving DecidableEq, Repr

/-- ident_storage.rs:31-42 `kind_is_allowed_in_definition` -/
def Kind.allows : Kind → Kind → Bool
  | .dimension, k => k = .dimension
  | .unit, k => k = .unit || k = .baseUnit || k = .constant
  | .baseUnit, k => k = .dimension
  | .constant, k => k = .constant || k = .unit || k = .baseUnit

/-- ident_storage.rs:50-55 `enum ItemType` -/
inductive ItemType (E M : Type) where
  | dimension (d : DimensionEntry E)
  | unit (u : UnitEntry E M)
  | constant (c : ConstantEntry E M)

/-- ident_storage.rs:44-48 `struct Item` -/
structure Item (E M : Type) where
  expr : Expr (Atom (DM E M)) E
  type : ItemType E M

namespace Item
variable {E M : Type}

/-- ident_storage.rs:58-67 `Item::kind` -/
def kind (i : Item E M) : Kind :=
  match i.type with
  | .dimension _ => .dimension
  | .unit u => match u.definition with
    | .base _ => .baseUnit
    | .expression _ => .unit
  | .constant _ => .constant

/-- ident_storage.rs:69-75 `Item::ident` -/
def ident (i : Item E M) : Str :=
  match i.type with
  | .dimension d => d.name
  | .unit u => u.name
  | .constant c => c.name

/-- ident_storage.rs:77-83 `Item::annotation` -/
def annotation (i : Item E M) : Option Str :=
  match i.type with
  | .dimension _ => none
  | .unit u => u.annotation
  | .constant c => c.annotation

/-- `autogenerated_from` of a unit item, as matched in ident_storage.rs:201-204. -/
def autogeneratedFrom (i : Item E M) : Option Str :=
  match i.type with
  | .unit u => u.autogeneratedFrom
  | _ => none

/-- The identifiers an item's expression mentions, in `iter_vals` order (the `Factor::Other` cases of the loops in
ident_storage.rs:123-126, 216-225, 293-294). -/
def refs (i : Item E M) : List Str := i.expr.vals.filterMap fun
  | .concrete _ => none
  | .other x => some x

variable [Exponent E] [MagOps E M]

/-- ident_storage.rs:316-333 `impl From<DimensionEntry> for Item`; `BaseDimensions::for_base_dimension` is
dimension_math.rs:40-44, `BaseDimension::from_dimension` base_dimension.rs:7-9. -/
def ofDimension (d : DimensionEntry E) : Item E M :=
  { type := .dimension d
    expr := match d.rhs with
      | .expression e => e.map (Atom.mapConcrete fun _ => DM.dimensions [])
      | .base _ => .value (.value (.concrete (DM.dimensions [(toSnakecase d.name, Exponent.one)]))) }

/-- ident_storage.rs:335-350 `impl From<UnitEntry> for Item` -/
def ofUnit (u : UnitEntry E M) : Item E M :=
  { type := .unit u
    expr := match u.definition with
      | .expression e => e.map (Atom.mapConcrete DM.magnitude)
      | .base d => .value (.value (.other d)) }

/-- ident_storage.rs:352-363 `impl From<ConstantEntry> for Item` -/
def ofConstant (c : ConstantEntry E M) : Item E M :=
  { type := .constant c
    expr := c.rhs.map (Atom.mapConcrete DM.magnitude) }

end Item

/-- ident_storage.rs:109-112 `struct ResolvedItem` -/
structure ResolvedItem (E M : Type) where
  item : Item E M
  dimensions : DM E M

/-- `BTreeMap<Ident, V>`: a list sorted by key (ident_storage.rs:118). -/
abbrev BMap (V : Type) := List (Str × V)

namespace BMap
variable {V : Type}
/-- `BTreeMap::get` -/
def get : BMap V → Str → Option V
  | [], _ => none
  | (k, v) :: m, k' => if k = k' then some v else get m k'
/-- `BTreeMap::insert` -/
def insert (m : BMap V) (k : Str) (v : V) : BMap V :=
  match m with
  | [] => [(k, v)]
  | (k', v') :: m' =>
    if k = k' then (k, v) :: m'
    else if Str.lt k k' then (k, v) :: (k', v') :: m'
    else (k', v') :: insert m' k v
/-- `BTreeMap::contains_key` -/
def contains (m : BMap V) (k : Str) : Bool := (m.get k).isSome
end BMap

/-- The errors of resolve/error.rs:15-65 (payloads that only serve the message text are kept as names). -/
inductive Diag where
  | typeNone (typeName : Str)
  | typeMultiple (typeName : Str) (idents : List Str)
  | multipleBaseUnits (dimension unit : Str)
  | baseUnitForNonBase (dimension unit : Str)
  | symbolMultiple (symbol : Str) (units : List Str)
  | undefined (idents : List Str)
  | multipleDefinitions (groups : List (List Str))
  | kindNotAllowed (lhs rhs : Str) (lhsKind rhsKind : Kind)
  | unresolvable (idents : List Str)
  | wrongTypeInAnnotation (annotation : Str) (kind : Kind)
  | violatedAnnotation (ident annotation : Str)
  | undefinedAnnotation (annotation : Str)
  | noSymbolForBaseUnit (unit : Str)
deriving DecidableEq, Repr

section
variable {E M : Type} [Exponent E] [MagOps E M]

/-- ident_storage.rs:122-128 `is_resolvable` -/
def isResolvable (res : BMap (ResolvedItem E M)) (i : Item E M) : Bool :=
  i.expr.vals.all fun
    | .concrete _ => true
    | .other x => res.contains x

/-- ident_storage.rs:130-138 `resolve_dimensions`; `self.resolved[&ident]` panics on a missing key. -/
def resolveDimensions (res : BMap (ResolvedItem E M)) (i : Item E M) : Option (DM E M) := do
  let e ← i.expr.mapM fun
    | .concrete c => some c
    | .other x => (res.get x).map ResolvedItem.dimensions
  e.eval

/-- ident_storage.rs:147-154: `find` the first resolvable item and `remove` it from the list. -/
def takeResolvable (res : BMap (ResolvedItem E M)) : List (Item E M) → Option (Item E M × List (Item E M))
  | [] => none
  | x :: xs =>
    if isResolvable res x then some (x, xs)
    else (takeResolvable res xs).map fun (y, ys) => (y, x :: ys)

omit [Exponent E] [MagOps E M] in
theorem takeResolvable_length {res : BMap (ResolvedItem E M)} {l : List (Item E M)} {x : Item E M} {l' : List (Item E M)}
    (h : takeResolvable res l = some (x, l')) : l'.length + 1 = l.length := by
  induction l generalizing x l' with
  | nil => simp [takeResolvable] at h
  | cons a l ih =>
    unfold takeResolvable at h
    split at h
    · injection h with h; injection h with h1 h2; subst h2; rfl
    · cases ht : takeResolvable res l with
      | none => simp [ht] at h
      | some p =>
        obtain ⟨y, ys⟩ := p
        simp [ht] at h
        have := ih ht
        obtain ⟨_, h2⟩ := h; subst h2
        simp; omega

/-- ident_storage.rs:144-175 `resolve`: repeatedly move the first resolvable item to the resolved map; if none is left that is
resolvable, report all remaining ones. -/
def resolveLoop (unresolved : List (Item E M)) (res : BMap (ResolvedItem E M)) :
    Option (BMap (ResolvedItem E M) × List Diag) :=
  if unresolved.isEmpty then some (res, [])
  else match h : takeResolvable res unresolved with
    | some (x, rest) => do
      let d ← resolveDimensions res x
      resolveLoop rest (res.insert x.ident ⟨x, d⟩)
    | none => some (res, [.unresolvable (unresolved.map Item.ident)])
termination_by unresolved.length
decreasing_by have := takeResolvable_length h; omega

/-- ident_storage.rs:187-192 `unresolved_idents` (a `HashSet`, only used for membership). -/
def unresolvedIdents (l : List (Item E M)) : List Str := l.map Item.ident

/-- ident_storage.rs:194-209 `filter_autogenerated_invalid` -/
def filterAutogenerated (l : List (Item E M)) : List (Item E M) :=
  l.filter fun i => match i.autogeneratedFrom with
    | some x => (unresolvedIdents l).contains x
    | none => true

/-- The first undefined identifier of an item (`all` stops there, ident_storage.rs:216-225). -/
def firstUndefined (defined : List Str) (i : Item E M) : Option Str :=
  i.refs.find? fun x => !defined.contains x

/-- ident_storage.rs:211-231 `filter_undefined` -/
def filterUndefined (l : List (Item E M)) : List (Item E M) × List Diag :=
  let defined := unresolvedIdents l
  let bad := l.filterMap (firstUndefined defined)
  (l.filter fun i => (firstUndefined defined i).isNone, if bad.isEmpty then [] else [.undefined bad])

/-- First-occurrence deduplication: the key order given to the `HashMap`s of counts. -/
def dedup : List Str → List Str
  | [] => []
  | x :: xs => x :: (dedup xs).filter (· ≠ x)

/-- ident_storage.rs:233-256 `filter_multiply_defined`: reports only, removes nothing. -/
def multiplyDefined (l : List (Item E M)) : List Diag :=
  let ids := l.map Item.ident
  let v := ((dedup ids).filter fun x => decide (1 < ids.count x)).map fun x => ids.filter (· = x)
  if v.isEmpty then [] else [.multipleDefinitions v]

/-- ident_storage.rs:286-290: the `kinds` map, later items overriding earlier ones. -/
def kindOf (l : List (Item E M)) (x : Str) : Option Kind :=
  (l.reverse.find? fun i => i.ident = x).map Item.kind

/-- ident_storage.rs:284-313 `check_kinds_in_definitions` -/
def checkKinds (l : List (Item E M)) : List Diag :=
  l.flatMap fun lhs => lhs.refs.filterMap fun x =>
    match kindOf l x with
    | some k => if lhs.kind.allows k then none else some (.kindNotAllowed lhs.ident x lhs.kind k)
    | none => none

/-- ident_storage.rs:258-282 `check_type_annotations` -/
def checkAnnotations (res : BMap (ResolvedItem E M)) : List Diag :=
  res.flatMap fun (_, it) =>
    match it.item.annotation with
    | none => []
    | some a => match res.get a with
      | some ann =>
        if ann.item.kind ≠ .dimension then [.wrongTypeInAnnotation a ann.item.kind]
        else if !(ann.dimensions.dims.eq it.dimensions.dims) then [.violatedAnnotation it.item.ident a]
        else []
      | none => [.undefinedAnnotation a]

/-- types/mod.rs:211-214 `struct Dimension` -/
structure DimensionDef (E : Type) where
  name : Str
  dims : Dims E

/-- types/mod.rs:216-223 `struct Unit` -/
structure UnitDef (E M : Type) where
  name : Str
  dims : Dims E
  mag : M
  symbol : Option Str
  isBase : Bool

/-- types/mod.rs:225-229 `struct Constant` -/
structure ConstantDef (E M : Type) where
  name : Str
  dims : Dims E
  mag : M

/-- ident_storage.rs:177-185 `get_items` at `Dimension` (ident_storage.rs:370-382); `unwrap_dimension` panics on another kind. -/
def getDimensions (res : BMap (ResolvedItem E M)) : Option (List (DimensionDef E)) :=
  (res.filter fun r => r.2.item.kind = .dimension).mapM fun r =>
    match r.2.item.type with
    | .dimension d => some ⟨d.name, r.2.dimensions.dims⟩
    | _ => none

/-- ident_storage.rs:177-185 `get_items` at `Unit` (ident_storage.rs:384-399) -/
def getUnits (res : BMap (ResolvedItem E M)) : Option (List (UnitDef E M)) :=
  (res.filter fun r => r.2.item.kind = .unit || r.2.item.kind = .baseUnit).mapM fun r =>
    match r.2.item.type with
    | .unit u => some ⟨u.name, r.2.dimensions.dims, r.2.dimensions.mag, u.symbol,
        match u.definition with | .base _ => true | .expression _ => false⟩
    | _ => none

/-- ident_storage.rs:177-185 `get_items` at `Constant` (ident_storage.rs:401-414) -/
def getConstants (res : BMap (ResolvedItem E M)) : Option (List (ConstantDef E M)) :=
  (res.filter fun r => r.2.item.kind = .constant).mapM fun r =>
    match r.2.item.type with
    | .constant c => some ⟨c.name, r.2.dimensions.dims, r.2.dimensions.mag⟩
    | _ => none

/-- resolve/mod.rs:22-48 `get_single_ident` -/
def getSingleIdent (types : List Str) (typeName dflt : Str) : Str × List Diag :=
  match types with
  | [x] => (x, [])
  | [] => (dflt, [.typeNone typeName])
  | x :: xs => (x, [.typeMultiple typeName (x :: xs)])

/-- resolve/mod.rs:143-169 `check_invalid_base_units`; `counter` maps base dimension names to the number of base units seen. -/
def checkBaseUnits (baseDims : List Str) (counter : Str → Nat) : List (UnitEntry E M) → List Diag
  | [] => []
  | u :: us =>
    if u.autogeneratedFrom.isSome then checkBaseUnits baseDims counter us
    else match u.definition with
      | .base d =>
        if baseDims.contains d then
          (if 1 < counter d + 1 then [.multipleBaseUnits d u.name] else []) ++
            checkBaseUnits baseDims (fun x => if x = d then counter x + 1 else counter x) us
        else .baseUnitForNonBase d u.name :: checkBaseUnits baseDims counter us
      | .expression _ => checkBaseUnits baseDims counter us

/-- resolve/mod.rs:128-141 `get_base_dimensions`, the returned list -/
def baseDimensions (dims : List (DimensionEntry E)) : List Str :=
  (dims.filter DimensionEntry.isBase).map fun d => toSnakecase d.name

/-- resolve/mod.rs:111-126 `check_multiply_defined_symbols` -/
def checkSymbols (units : List (UnitEntry E M)) : List Diag :=
  let syms := units.filterMap UnitEntry.symbol
  ((dedup syms).filter fun s => decide (1 < syms.count s)).map fun s =>
    .symbolMultiple s ((units.filter fun u => u.symbol = some s).map UnitEntry.name)

/-- resolve/mod.rs:103-109 `check_for_base_units_without_symbol` -/
def checkBaseSymbols (units : List (UnitDef E M)) : List Diag :=
  units.filterMap fun u => if u.isBase && u.symbol.isNone then some (.noSymbolForBaseUnit u.name) else none

/-- types/mod.rs:231-238 `struct Defs` -/
structure Defs (E M : Type) where
  dimensionType : Str
  quantityType : Str
  dimensions : List (DimensionDef E)
  units : List (UnitDef E M)
  constants : List (ConstantDef E M)
  baseDimensions : List Str

/-- resolve/mod.rs:77-79 `idents.add(...)` three times. -/
def allItems (u : UnresolvedDefs E M) : List (Item E M) :=
  u.dimensions.map Item.ofDimension ++ u.units.map Item.ofUnit ++ u.constants.map Item.ofConstant

/-- What happens between `add` and `get_items`, resolve/mod.rs:80-87: the filters, the resolution loop, the annotation check. -/
def resolveItems (items : List (Item E M)) : Option (BMap (ResolvedItem E M) × List Diag) := do
  let (l1, d1) := filterUndefined items
  let l2 := filterAutogenerated l1
  let d2 := multiplyDefined l2
  let l3 := filterAutogenerated l2
  let d3 := checkKinds l3
  let l4 := filterAutogenerated l3
  let (res, d4) ← resolveLoop l4 []
  return (res, d1 ++ d2 ++ d3 ++ d4 ++ checkAnnotations res)

/-- resolve/mod.rs:63-100 `UnresolvedDefs::resolve`, returning the definitions and everything that was emitted. -/
def resolveDefs (u : UnresolvedDefs E M) : Option (Defs E M × List Diag) := do
  let (quantityType, e1) := getSingleIdent u.quantityTypes (str!"quantity type") (str!"Quantity")
  let (dimensionType, e2) := getSingleIdent u.dimensionTypes (str!"dimension type") (str!"Dimension")
  let baseNames := (u.dimensions.filter DimensionEntry.isBase).map DimensionEntry.name
  let e3 := checkBaseUnits baseNames (fun _ => 0) u.units
  let e4 := checkSymbols u.units
  let (res, e5) ← resolveItems (allItems u)
  let dimensions ← getDimensions res
  let units ← getUnits res
  let constants ← getConstants res
  return ({ dimensionType, quantityType, dimensions, units, constants, baseDimensions := baseDimensions u.dimensions },
    e1 ++ e2 ++ e3 ++ e4 ++ e5 ++ checkBaseSymbols units)

end
end Diman
