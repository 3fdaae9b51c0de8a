import Verif.Model.Resolve
/-!
# The generated dimension type
Models crates/diman_unit_system/src/codegen/dimension_type.rs and codegen/dimensions.rs. The generated `struct Dimension` has one
field per base dimension; a value of it is modelled as the list of its field values in declaration order. All methods are `const fn`s
evaluated at compile time: `none` is a compile error (overflow, failed divisibility check).
-/
namespace Diman

/-- The field-wise operations of the generated methods, which differ between the two exponent types. -/
class FieldOps (E : Type) where
  /-- dimension_type.rs:17-21, 74-76 `get_base_dimension_entry`: the field initialiser written into the code, evaluated. -/
  entry : E → Option E
  /-- dimension_type.rs:194-199 `zero_entry` -/
  zero : E
  /-- dimension_type.rs:27-31, 82-86 `add_entry` -/
  add : E → E → Option E
  /-- dimension_type.rs:33-37, 88-92 `sub_entry` -/
  sub : E → E → Option E
  /-- dimension_type.rs:39-43, 94-98 `neg_entry` -/
  neg : E → Option E
  /-- dimension_type.rs:45-49, 100-104 `mul_entry` (`other: i32`, converted to `i64`) -/
  mul : E → Int → Option E
  /-- dimension_type.rs:51-55, 106-110, 118-124 `sqrt_entry` guarded by `sqrt_safety` -/
  div2 : E → Option E
  /-- dimension_type.rs:57-61, 112-116, 126-132 `cbrt_entry` guarded by `cbrt_safety` -/
  div3 : E → Option E

/-- dimension_type.rs:72-133: integer exponents. `%` and `/` truncate; dividing by 2 or 3 cannot overflow. -/
instance : FieldOps Int where
  entry a := some a
  zero := 0
  add a b := i64 (a + b)
  sub a b := i64 (a - b)
  neg a := i64 (-a)
  mul a n := i64 (a * n)
  div2 a := if a.tmod 2 ≠ 0 then none else some (a.tdiv 2)
  div3 a := if a.tmod 3 ≠ 0 then none else some (a.tdiv 3)

/-- dimension_type.rs:15-70: rational exponents, no safety checks. -/
instance : FieldOps Ratio where
  entry a := Ratio.new a.num a.denom
  zero := Ratio.int 0
  add := Ratio.add
  sub := Ratio.sub
  neg := Ratio.neg
  mul a n := Ratio.mul a (Ratio.int n)
  div2 a := Ratio.div a (Ratio.int 2)
  div3 a := Ratio.div a (Ratio.int 3)

/-- A value of the generated dimension struct. -/
abbrev DimVal (E : Type) := List E

namespace DimVal
variable {E : Type} [FieldOps E]

/-- Build the struct field by field from one operand. -/
def map1 (f : E → Option E) : DimVal E → Option (DimVal E)
  | [] => some []
  | a :: as => do return (← f a) :: (← map1 f as)

/-- Build the struct field by field from two operands (of the same type, hence the same fields). -/
def map2 (f : E → E → Option E) : DimVal E → DimVal E → Option (DimVal E)
  | [], [] => some []
  | a :: as, b :: bs => do return (← f a b) :: (← map2 f as bs)
  | _, _ => none

/-- dimension_type.rs:221-225 `none()`, for a struct with `n` fields -/
def none (n : Nat) : DimVal E := List.replicate n FieldOps.zero
/-- dimension_type.rs:227-231 `add`: the dimension of a product -/
def add : DimVal E → DimVal E → Option (DimVal E) := map2 FieldOps.add
/-- dimension_type.rs:233-237 `sub`: the dimension of a quotient -/
def sub : DimVal E → DimVal E → Option (DimVal E) := map2 FieldOps.sub
/-- dimension_type.rs:239-243 `neg` -/
def neg : DimVal E → Option (DimVal E) := map1 FieldOps.neg
/-- dimension_type.rs:245-249 `mul`: the dimension of an integer power -/
def mul (d : DimVal E) (n : Int) : Option (DimVal E) := map1 (fun a => FieldOps.mul a n) d
/-- dimension_type.rs:251-256 `div_2`: the dimension of a square root -/
def div2 : DimVal E → Option (DimVal E) := map1 FieldOps.div2
/-- dimension_type.rs:258-263 `div_3`: the dimension of a cube root -/
def div3 : DimVal E → Option (DimVal E) := map1 FieldOps.div3

end DimVal

section
variable {E : Type} [FieldOps E]

/-- A Rust struct expression `T { f: v, ..., ..base }` for a struct with the given field names: rejected if a field is unknown or
given twice, or if some field is missing and there is no base expression; otherwise every field is the given value or the base's
(here always `none()`, i.e. zero). Field values are evaluated by `FieldOps.entry`. -/
def structExpr (fieldNames : List Str) (given : List (Str × E)) (base : Bool) : Option (DimVal E) :=
  if ¬ (given.map Prod.fst).Nodup ∨ ¬ (∀ k ∈ given.map Prod.fst, k ∈ fieldNames) then none
  else if ¬ base ∧ ¬ (∀ k ∈ fieldNames, k ∈ given.map Prod.fst) then none
  else fieldNames.mapM fun k =>
    match given.find? (fun kv => kv.1 = k) with
    | some (_, v) => FieldOps.entry v
    | none => some FieldOps.zero

/-- codegen/dimensions.rs:8-26 `get_dimension_expr`: the `Dimension` expression written for a definition, evaluated. A struct
declared with the same field name twice does not compile (dimension_type.rs:138-148). -/
def dimensionExpr (baseDims : List Str) (dim : Dims E) : Option (DimVal E) :=
  if ¬ baseDims.Nodup then none
  else structExpr baseDims dim (decide (dim.length < baseDims.length))

end
end Diman
