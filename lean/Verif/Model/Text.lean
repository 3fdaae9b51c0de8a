import Verif.Model.Api
/-!
# Text: Debug output and serde
Models crates/diman_unit_system/src/codegen/debug_trait.rs, codegen/serde.rs and crates/diman_lib/src/runtime_unit_storage.rs, and the
parts of core's string handling they call. Strings are lists of code points. What core does for floating-point numbers (`Display`,
`FromStr`) is a parameter (`TextPrims`).
-/
namespace Diman

/-! ## Strings (core) -/

/-- `char::is_whitespace`: the Unicode property White_Space. -/
def isWs (c : Char) : Bool :=
  let n := c.toNat
  (9 ≤ n && n ≤ 13) || n == 0x20 || n == 0x85 || n == 0xA0 || n == 0x1680 || (0x2000 ≤ n && n ≤ 0x200A) || n == 0x2028 || n == 0x2029
    || n == 0x202F || n == 0x205F || n == 0x3000

/-- `str::trim` -/
def trim (s : Str) : Str := ((s.dropWhile isWs).reverse.dropWhile isWs).reverse

/-- `str::split`: the parts between the separators; always at least one part. -/
def splitBy (p : Char → Bool) : Str → List Str
  | [] => [[]]
  | c :: cs =>
    if p c then [] :: splitBy p cs
    else match splitBy p cs with
      | [] => [[c]]
      | w :: ws => (c :: w) :: ws

/-- `str::split_whitespace`: the non-empty parts between whitespace. -/
def splitWs (s : Str) : List Str := (splitBy isWs s).filter (fun w => !w.isEmpty)

/-- The value of an ASCII digit (`char::to_digit(10)`). -/
def digitVal (c : Char) : Option Nat := if '0'.toNat ≤ c.toNat ∧ c.toNat ≤ '9'.toNat then some (c.toNat - '0'.toNat) else none

/-- The loop of core's integer parsing: every character must be a digit. -/
def parseDigits : Nat → Str → Option Nat
  | acc, [] => some acc
  | acc, c :: cs => (digitVal c).bind fun d => parseDigits (acc * 10 + d) cs

/-- core's integer parsing: an optional leading sign, and the rest. -/
def splitSign : Str → Bool × Str
  | [] => (false, [])
  | c :: cs => if c = '-' then (true, cs) else if c = '+' then (false, cs) else (false, c :: cs)

/-- `str::parse::<i32>`: an optional sign, then at least one digit, then nothing else; out of range is an error. -/
def parseI32 (s : Str) : Option Int :=
  if (splitSign s).2.isEmpty then none
  else (parseDigits 0 (splitSign s).2).bind fun n =>
    if InI32 (if (splitSign s).1 then -(n : Int) else n) then some (if (splitSign s).1 then -(n : Int) else n) else none

/-- The ASCII digit of a number below ten. -/
def digitChar (n : Nat) : Char := Char.ofNat ('0'.toNat + n)

/-- `Display` of an unsigned integer. -/
def showNat (n : Nat) : Str := if n < 10 then [digitChar n] else showNat (n / 10) ++ [digitChar (n % 10)]
termination_by n
decreasing_by omega

/-- `Display` of a signed integer. -/
def showInt (i : Int) : Str := if i < 0 then '-' :: showNat i.natAbs else showNat i.natAbs

/-- `str::replace` of a single character by a string. -/
def replaceChar (c : Char) (by_ : Str) (s : Str) : Str := s.flatMap fun x => if x = c then by_ else [x]

/-- `Display` of the exponent type. -/
class ShowExponent (E : Type) where
  showE : E → Str

/-- core, `Display for i64` -/
instance : ShowExponent Int := ⟨showInt⟩
/-- ratio.rs:105-113 `Display for Ratio` -/
instance : ShowExponent Ratio := ⟨fun r => if r.denom = 1 then showInt r.num else showInt r.num ++ '/' :: showInt r.denom⟩

/-- What core does with floating-point numbers and text, and the conversions between float types and to `Magnitude`. -/
class TextPrims (K M : Type) where
  /-- `Display` of a float (no format flags) -/
  showF : FloatTy → K → Str
  /-- `str::parse::<f32>` / `::<f64>` -/
  parseF : FloatTy → Str → Option K
  /-- an integer `as f32` / `as f64` -/
  ofInt : FloatTy → Int → K
  /-- an `f64` `as f32` / `as f64` -/
  ofF64 : FloatTy → K → K
  /-- magnitude.rs:37-44 `Magnitude::from_f64` -/
  fromF64 : K → M
  /-- `proc_macro2::Literal::f64_suffixed` asserts that the number is finite -/
  finite : K → Bool

/-- Result of a deserialisation: a value, an error reported to the deserializer, or a panic. -/
inductive Outcome (α : Type) where
  | ok (a : α)
  | error
  | panic
deriving DecidableEq

namespace Outcome
/-- `?` -/
def bind {α β : Type} : Outcome α → (α → Outcome β) → Outcome β
  | .ok a, f => f a
  | .error, _ => .error
  | .panic, _ => .panic
/-- An `Err(..)` unless there is a value. -/
def orError {α : Type} : Option α → Outcome α
  | some a => .ok a
  | none => .error
/-- A panic (arithmetic overflow) unless there is a value. -/
def orPanic {α : Type} : Option α → Outcome α
  | some a => .ok a
  | none => .panic
end Outcome

section
variable {E K M : Type} [Exponent E] [FieldOps E] [ShowExponent E] [MagOps E M] [Prims K M] [TextPrims K M]

/-! ## The table of units in generated code -/

/-- runtime_unit_storage.rs:1-5 `struct RuntimeUnit` -/
structure TableUnit (E K : Type) where
  symbol : Str
  dimension : DimVal E
  magnitude : K

/-- debug_trait.rs:13-43 `runtime_unit_storage`: the table entries of the units that have a symbol. `none`: the macro panics (a
conversion factor that is not finite has no literal) or the generated code does not compile. -/
def unitTable (M : Type) [Prims K M] [TextPrims K M] (bd : List Str) (units : List (UnitDef E M)) : Option (List (TableUnit E K)) :=
  (units.filterMap fun u => u.symbol.map fun s => (s, u)).mapM fun su => do
    let d ← dimensionExpr bd su.2.dims
    let m : K := Prims.into .f64 su.2.mag
    if TextPrims.finite M m then some ⟨su.1, d, m⟩ else none

/-- runtime_unit_storage.rs:26-28 `get_first_unit_for_dimension` -/
def firstUnitFor (units : List (TableUnit E K)) (d : DimVal E) : Option (TableUnit E K) := units.find? fun u => decide (u.dimension = d)

/-- runtime_unit_storage.rs:30-32 `get_unit_by_symbol` -/
def unitBySymbol (units : List (TableUnit E K)) (s : Str) : Option (TableUnit E K) := units.find? fun u => decide (u.symbol = s)

/-! ## Debug -/

/-- debug_trait.rs:77-88 `get_base_dimension_symbol`: what is printed for one base dimension `b` with exponent `e`. `none`: `unwrap`
panics (or the dimension expression does not compile). -/
def baseSymbolText (bd : List Str) (units : List (TableUnit E K)) (b : Str) (e : E) : Option Str := do
  let dim ← dimensionExpr bd [(b, Exponent.one)]
  if e = Exponent.one then
    let u ← firstUnitFor units dim
    return ' ' :: u.symbol
  else if e ≠ Exponent.zero then
    let u ← firstUnitFor units dim
    return ' ' :: (u.symbol ++ '^' :: ShowExponent.showE e)
  else return []

/-- debug_trait.rs:54-73: the text after the value. `units` are the units of magnitude one that have a symbol. -/
def debugUnitText (bd : List Str) (units : List (TableUnit E K)) (d : DimVal E) : Option Str :=
  match firstUnitFor units d with
  | some u => some (' ' :: u.symbol)
  | none => ((bd.zip d).mapM fun be => baseSymbolText bd units be.1 be.2).map List.flatten

/-- debug_trait.rs:45-75 `gen_debug_trait_impl`: `{:?}` of a quantity of dimension `d` whose stored value prints as `value`. `none`: panic,
or the generated code does not compile. -/
def debugFmt (K : Type) [Prims K M] [TextPrims K M] (defs : Defs E M) (d : DimVal E) (value : Str) : Option Str := do
  let units : List (TableUnit E K) ← unitTable M defs.baseDimensions (defs.units.filter fun u => MagOps.isOne E u.mag)
  let text ← debugUnitText defs.baseDimensions units d
  return value ++ text

/-- core's `Display` of a float; glam's `Display` of a vector: `[x, y]`, `[x, y, z]`. -/
def showRaw (M : Type) [TextPrims K M] (s : Storage) (r : Raw K) : Str :=
  if s.isFloat then (r.map (TextPrims.showF M s.base)).flatten
  else '[' :: ((r.map (TextPrims.showF M s.base)).intersperse [',', ' ']).flatten ++ [']']

/-! ## Serialising -/

/-- serde.rs:182-189, 263-273: the string given to `serialize_str`. -/
def serializeStr (M : Type) [MagOps E M] [Prims K M] [TextPrims K M] (defs : Defs E M) (s : Storage) (d : DimVal E) (r : Raw K) :
    Option Str :=
  if s.isFloat then debugFmt K defs d (showRaw M s r)
  else (debugFmt K defs d (showRaw M s r)).map fun t => replaceChar ',' [] (replaceChar ']' [')'] (replaceChar '[' ['('] t))

/-! ## Deserialising -/

/-- serde.rs:63-76: unit symbol and exponent of one word; `none` is an error. -/
def cutUnitWord (w : Str) : Option (Str × Int) :=
  if w.contains '^' then
    match splitBy (· = '^') w with
    | [u, e] => (parseI32 e).map fun i => (u, i)
    | _ => none
  else some (w, 1)

/-- serde.rs:59-85 `read_single_unit_str`: dimension and factor of one unit, e.g. `m` or `s^-2`. -/
def readSingleUnit (M : Type) [MagOps E M] [Prims K M] [TextPrims K M] (units : List (TableUnit E K)) (w : Str) :
    Outcome (DimVal E × K) :=
  (Outcome.orError (cutUnitWord w)).bind fun ue =>
  (Outcome.orError (unitBySymbol units ue.1)).bind fun u =>
  (Outcome.orPanic (DimVal.mul u.dimension ue.2)).bind fun d =>
  .ok (d, Prims.into .f64 (MagOps.pow (TextPrims.fromF64 u.magnitude) (Exponent.ofInt ue.2 : E) : M))

/-- serde.rs:48-57 `read_unit_str`, from a running dimension and factor. -/
def readUnits (M : Type) [MagOps E M] [Prims K M] [TextPrims K M] (units : List (TableUnit E K)) : DimVal E → K → List Str →
    Outcome (DimVal E × K)
  | d, f, [] => .ok (d, f)
  | d, f, w :: ws =>
    (readSingleUnit M units w).bind fun df =>
    (Outcome.orPanic (DimVal.add d df.1)).bind fun d' =>
    readUnits M units d' (Prims.mul M .f64 f df.2) ws

/-- serde.rs:33-46 `get_quantity_if_dimensions_match`; a quantity is its stored value. -/
def ifDimensionsMatch (target : DimVal E) (r : Raw K) (d : DimVal E) : Outcome (Raw K) := if d = target then .ok r else .error

/-- serde.rs:158-179: `visit_str` for a float type. -/
def visitStrFloat (M : Type) [MagOps E M] [Prims K M] [TextPrims K M] (n : Nat) (units : List (TableUnit E K)) (t : FloatTy)
    (target : DimVal E) (value : Str) : Outcome (Raw K) :=
  match splitWs (trim value) with
  | [] => .error
  | w :: ws =>
    (Outcome.orError (TextPrims.parseF M t w)).bind fun x =>
    (readUnits M units (DimVal.none n) (Prims.one M .f64) ws).bind fun df =>
    ifDimensionsMatch target [Prims.mul M t x (TextPrims.ofF64 M t df.2)] df.1

/-- serde.rs:117-142: `visit_i64` and `visit_u64` for a float type (`value` in range). -/
def visitInt (M : Type) [TextPrims K M] (n : Nat) (t : FloatTy) (target : DimVal E) (value : Int) : Outcome (Raw K) :=
  if target = DimVal.none n then .ok [TextPrims.ofInt M t value] else .error

/-- serde.rs:144-156: `visit_f64` for a float type. -/
def visitF64 (M : Type) [TextPrims K M] (n : Nat) (t : FloatTy) (target : DimVal E) (value : K) : Outcome (Raw K) :=
  if target = DimVal.none n then .ok [TextPrims.ofF64 M t value] else .error

/-- serde.rs:228-260: `visit_str` for a vector type. -/
def visitStrVector (M : Type) [MagOps E M] [Prims K M] [TextPrims K M] (n : Nat) (units : List (TableUnit E K)) (s : Storage)
    (target : DimVal E) (value : Str) : Outcome (Raw K) :=
  let value := trim value
  -- `find(')')`, then `split_at(bracket_end + 1)`
  let before := value.takeWhile (· ≠ ')')
  let unitPart := (value.dropWhile (· ≠ ')')).drop 1
  if ¬ value.contains ')' then .error
  else if ¬ before.contains '(' then .error
  else
    let vectorPart := (before.dropWhile (· ≠ '(')).drop 1
    let components := splitWs vectorPart
    if components.length ≠ s.numDims then .error
    else
      (Outcome.orError (components.mapM (TextPrims.parseF M s.base))).bind fun array =>
      (readUnits M units (DimVal.none n) (Prims.one M .f64) (splitWs unitPart)).bind fun df =>
      ifDimensionsMatch target (array.map (Prims.mul M s.base (TextPrims.ofF64 M s.base df.2))) df.1

/-- serde.rs:22, 77, 101-108, 207-214: deserialising a string as `Quantity<s, target>` in the unit system `defs`. `none`: the generated code
does not compile. -/
def deserializeStr (M : Type) [MagOps E M] [Prims K M] [TextPrims K M] (defs : Defs E M) (s : Storage) (target : DimVal E) (value : Str) :
    Option (Outcome (Raw K)) := do
  let units ← unitTable M defs.baseDimensions defs.units
  let n := defs.baseDimensions.length
  if s.isFloat then return visitStrFloat M n units s.base target value
  else return visitStrVector M n units s target value

/-- A value of a self-describing data format, as the deserializer presents it to the visitor. serde's provided methods forward the smaller
integer and float types to these. -/
inductive SerdeValue (K : Type) where
  | str (s : Str)
  | i64 (i : Int)
  | u64 (n : Nat)
  | f64 (x : K)
  /-- anything else (a bool, bytes, a 128-bit integer, a sequence, a map, ...): serde's provided methods report an error -/
  | other

/-- serde.rs:110-180, 216-261: deserialising any value as `Quantity<s, target>`. The visitor of a vector type has only `visit_str`; serde's
provided methods report an error for numbers. -/
def deserialize (M : Type) [MagOps E M] [Prims K M] [TextPrims K M] (defs : Defs E M) (s : Storage) (target : DimVal E) :
    SerdeValue K → Option (Outcome (Raw K))
  | .str value => deserializeStr M defs s target value
  | v => do
    let _ : List (TableUnit E K) ← unitTable M defs.baseDimensions defs.units
    let n := defs.baseDimensions.length
    if s.isFloat then match v with
      | .i64 i => return visitInt M n s.base target i
      | .u64 i => return visitInt M n s.base target i
      | .f64 x => return visitF64 M n s.base target x
      | _ => return .error
    else return .error

end
end Diman
