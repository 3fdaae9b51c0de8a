import Verif.Model.Text
/-!
# The errors of deserialising
Models crates/diman_unit_system/src/codegen/serde.rs:33-85 and 110-261 again, now with the messages given to `E::custom`. `Model/Text.lean` has the same
functions without messages; C75 proves that the two agree.
-/
namespace Diman

/-- The errors of the generated visitors, with what their messages mention. -/
inductive ReadError (E : Type) where
  /-- serde.rs:163-165 -/
  | empty
  /-- serde.rs:166-171 -/
  | number (word : Str)
  /-- serde.rs:65-67 -/
  | badUnit (word : Str)
  /-- serde.rs:70-72 -/
  | exponent (text : Str)
  /-- serde.rs:78-80 -/
  | unknownUnit (symbol : Str)
  /-- serde.rs:41-44 -/
  | mismatch (needed given : DimVal E) (context : Str)
  /-- serde.rs:124-127, 137-140, 151-154; the number as printed -/
  | bare (value : Str)
  /-- serde.rs:235 -/
  | noClosing
  /-- serde.rs:239 -/
  | noOpening
  /-- serde.rs:242-244 -/
  | count (found expected : Nat)
  /-- serde.rs:249-251; the error of core's `parse` is printed too -/
  | component (dim : Nat) (cause string : Str)
  /-- serde's provided `visit_*` methods: `invalid type: {what was there}, expected {expecting}` (serde.rs:113-115, 219-226) -/
  | invalidType (unexpected expecting : Str)
deriving DecidableEq

/-- Result of a deserialisation with its error. -/
inductive Reading (E α : Type) where
  | ok (a : α)
  | error (e : ReadError E)
  | panic
deriving DecidableEq

namespace Reading
variable {E α β : Type}
/-- `?` -/
def bind : Reading E α → (α → Reading E β) → Reading E β
  | .ok a, f => f a
  | .error e, _ => .error e
  | .panic, _ => .panic
/-- `ok_or_else`, `map_err` -/
def orError (e : ReadError E) : Option α → Reading E α
  | some a => .ok a
  | none => .error e
/-- A panic (arithmetic overflow) unless there is a value. -/
def orPanic : Option α → Reading E α
  | some a => .ok a
  | none => .panic
/-- The result without the message. -/
def forget : Reading E α → Outcome α
  | .ok a => .ok a
  | .error _ => .error
  | .panic => .panic
end Reading

/-! ## The texts -/

/-- `Debug` of the exponent type. -/
class DebugExponent (E : Type) where
  debugE : E → Str

/-- core, `Debug for i64` -/
instance : DebugExponent Int := ⟨showInt⟩
/-- ratio.rs:3-13, the derived `Debug` of `struct Ratio { num, denom }` -/
instance : DebugExponent Ratio := ⟨fun r => str!"Ratio { num: " ++ showInt r.num ++ str!", denom: " ++ showInt r.denom ++ str!" }"⟩

section
variable {E : Type} [DebugExponent E]

/-- core's `DebugStruct`: one field -/
def debugField (f : Str × E) : Str := f.1 ++ str!": " ++ DebugExponent.debugE f.2

/-- core's `DebugStruct`: fields separated by commas -/
def debugFields : List (Str × E) → Str
  | [] => []
  | [f] => debugField f
  | f :: g :: fs => debugField f ++ str!", " ++ debugFields (g :: fs)

/-- dimension_type.rs:155, the derived `Debug` of the dimension type `name` with the given fields. -/
def debugDimension (name : Str) (fields : List Str) (d : DimVal E) : Str :=
  match fields.zip d with
  | [] => name
  | fs => name ++ str!" { " ++ debugFields fs ++ str!" }"

/-- The message given to the data format. `name` is the dimension type, `fields` the base dimensions. -/
def ReadError.message (name : Str) (fields : List Str) : ReadError E → Str
  | .empty => str!"unable to parse empty string"
  | .number w => str!"unable to parse numerical value " ++ w
  | .badUnit w => str!"invalid unit string: " ++ w
  | .exponent e => str!"unable to parse unit exponent: " ++ e
  | .unknownUnit u => str!"unknown unit: " ++ u
  | .mismatch needed given context => str!"mismatch in dimensions: needed: " ++ debugDimension name fields needed ++ str!" given: " ++
      debugDimension name fields given ++ str!" in string: " ++ context
  | .bare v => str!"dimensionless numerical value given for non-dimensionless quantity: " ++ v
  | .noClosing => str!"No closing bracket in vector string"
  | .noOpening => str!"No opening bracket in vector string"
  | .count found expected => str!"found " ++ showNat found ++ str!" substrings in brackets, expected " ++ showNat expected
  | .component dim cause string => str!"While parsing component " ++ showNat dim ++ str!": " ++ cause ++ str!", '" ++ string ++ str!"'"
  | .invalidType unexpected expecting => str!"invalid type: " ++ unexpected ++ str!", expected " ++ expecting
end

/-- core's `Display for ParseFloatError` -/
def parseFloatCause (w : Str) : Str := if w.isEmpty then str!"cannot parse float from empty string" else str!"invalid float literal"

/-- serde.rs:113-115, 219-226 `expecting` -/
def expecting (s : Storage) : Str :=
  if s.isFloat then str!"a numerical value followed by a series of powers of units"
  else (if s.numDims = 2 then str!"two" else str!"three") ++
    str!" numerical values surrounded by () followed by a series of powers of units, e.g. (1.0 2.0) m s^-2"

/-! ## Deserialising -/
section
variable {E K M : Type} [Exponent E] [FieldOps E] [MagOps E M] [Prims K M] [TextPrims K M]

/-- serde.rs:63-76: unit symbol and exponent of one word. -/
def cutUnitWordE (w : Str) : Reading E (Str × Int) :=
  if w.contains '^' then
    match splitBy (· = '^') w with
    | [u, e] => (Reading.orError (.exponent e) (parseI32 e)).bind fun i => .ok (u, i)
    | _ => .error (.badUnit w)
  else .ok (w, 1)

/-- serde.rs:59-85 `read_single_unit_str` -/
def readSingleUnitE (M : Type) [MagOps E M] [Prims K M] [TextPrims K M] (units : List (TableUnit E K)) (w : Str) : Reading E (DimVal E × K) :=
  (cutUnitWordE w).bind fun ue =>
  (Reading.orError (.unknownUnit ue.1) (unitBySymbol units ue.1)).bind fun u =>
  (Reading.orPanic (DimVal.mul u.dimension ue.2)).bind fun d =>
  .ok (d, Prims.into .f64 (MagOps.pow (TextPrims.fromF64 u.magnitude) (Exponent.ofInt ue.2 : E) : M))

/-- serde.rs:48-57 `read_unit_str` -/
def readUnitsE (M : Type) [MagOps E M] [Prims K M] [TextPrims K M] (units : List (TableUnit E K)) : DimVal E → K → List Str → Reading E (DimVal E × K)
  | d, f, [] => .ok (d, f)
  | d, f, w :: ws =>
    (readSingleUnitE M units w).bind fun df =>
    (Reading.orPanic (DimVal.add d df.1)).bind fun d' =>
    readUnitsE M units d' (Prims.mul M .f64 f df.2) ws

/-- serde.rs:33-46 `get_quantity_if_dimensions_match` -/
def ifDimensionsMatchE (context : Str) (target : DimVal E) (r : Raw K) (d : DimVal E) : Reading E (Raw K) :=
  if d = target then .ok r else .error (.mismatch target d context)

/-- serde.rs:158-179: `visit_str` for a float type. -/
def visitStrFloatE (M : Type) [MagOps E M] [Prims K M] [TextPrims K M] (n : Nat) (units : List (TableUnit E K)) (t : FloatTy)
    (target : DimVal E) (value : Str) : Reading E (Raw K) :=
  match splitWs (trim value) with
  | [] => .error .empty
  | w :: ws =>
    (Reading.orError (.number w) (TextPrims.parseF M t w)).bind fun x =>
    (readUnitsE M units (DimVal.none n) (Prims.one M .f64) ws).bind fun df =>
    ifDimensionsMatchE (trim value) target [Prims.mul M t x (TextPrims.ofF64 M t df.2)] df.1

/-- serde.rs:247-253: the loop over the components, from component `dim` on. -/
def parseComponents (M : Type) [TextPrims K M] (t : FloatTy) : Nat → List Str → Reading E (List K)
  | _, [] => .ok []
  | dim, w :: ws =>
    (Reading.orError (.component dim (parseFloatCause w) w) (TextPrims.parseF M t w)).bind fun x =>
    (parseComponents M t (dim + 1) ws).bind fun xs => .ok (x :: xs)

/-- serde.rs:228-260: `visit_str` for a vector type. -/
def visitStrVectorE (M : Type) [MagOps E M] [Prims K M] [TextPrims K M] (n : Nat) (units : List (TableUnit E K)) (s : Storage)
    (target : DimVal E) (value : Str) : Reading E (Raw K) :=
  let value := trim value
  let before := value.takeWhile (· ≠ ')')
  let unitPart := (value.dropWhile (· ≠ ')')).drop 1
  if ¬ value.contains ')' then .error .noClosing
  else if ¬ before.contains '(' then .error .noOpening
  else
    let vectorPart := (before.dropWhile (· ≠ '(')).drop 1
    let components := splitWs vectorPart
    if components.length ≠ s.numDims then .error (.count components.length s.numDims)
    else
      (parseComponents M s.base 0 components).bind fun array =>
      (readUnitsE M units (DimVal.none n) (Prims.one M .f64) (splitWs unitPart)).bind fun df =>
      ifDimensionsMatchE value target (array.map (Prims.mul M s.base (TextPrims.ofF64 M s.base df.2))) df.1

/-- serde.rs:117-156: `visit_i64`, `visit_u64`, `visit_f64` for a float type; `shown` is the number printed with `{}`. -/
def visitNumberE (n : Nat) (target : DimVal E) (x : K) (shown : Str) : Reading E (Raw K) :=
  if target = DimVal.none n then .ok [x] else .error (.bare shown)

/-- serde.rs:101-180, 207-261: deserialising any value as `Quantity<s, target>`, with the error. `describe` is serde's `Unexpected` as printed. `none`: the
generated code does not compile. -/
def deserializeE (M : Type) [MagOps E M] [Prims K M] [TextPrims K M] (defs : Defs E M) (describe : SerdeValue K → Str) (s : Storage) (target : DimVal E)
    (v : SerdeValue K) : Option (Reading E (Raw K)) := do
  let units : List (TableUnit E K) ← unitTable M defs.baseDimensions defs.units
  let n := defs.baseDimensions.length
  if s.isFloat then match v with
    | .str value => return visitStrFloatE M n units s.base target value
    | .i64 i => return visitNumberE n target (TextPrims.ofInt M s.base i) (showInt i)
    | .u64 i => return visitNumberE n target (TextPrims.ofInt M s.base i) (showNat i)
    | .f64 x => return visitNumberE n target (TextPrims.ofF64 M s.base x) (TextPrims.showF M .f64 x)
    | .other => return .error (.invalidType (describe v) (expecting s))
  else match v with
    | .str value => return visitStrVectorE M n units s target value
    | _ => return .error (.invalidType (describe v) (expecting s))
end
end Diman
