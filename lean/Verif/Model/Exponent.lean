import Verif.Model.Ratio
import Verif.Model.Magnitude
/-!
# Dimension exponents
`crate::types::Exponent` is `i64`, or `Ratio` with feature `rational-dimensions` (types/mod.rs:16-20). The model is generic in
it; this is the trait interface `DimensionExponent` (crates/diman_lib/src/dimension_exponent.rs:12-17) plus the operations
`AddAssign`, `Mul`, `Neg`. `none` is a panic (overflow).
-/
namespace Diman

/-- dimension_exponent.rs:12-17 `trait DimensionExponent: Clone + PartialEq + Copy + Mul + AddAssign + Neg`. -/
class Exponent (E : Type) where
  decEq : DecidableEq E
  one : E
  zero : E
  ofInt : Int → E
  add : E → E → Option E
  mul : E → E → Option E
  neg : E → Option E

instance (priority := low) {E : Type} [Exponent E] : DecidableEq E := Exponent.decEq

/-- dimension_exponent.rs:19-35 `impl DimensionExponent for i64`, with the primitive `+=`, `*`, unary `-`. -/
instance : Exponent Int where
  decEq := inferInstance
  one := 1
  zero := 0
  ofInt i := i
  add a b := i64 (a + b)
  mul a b := i64 (a * b)
  neg a := i64 (-a)

/-- ratio.rs:87-104 `impl DimensionExponent for Ratio`, with ratio.rs:115-140 `Mul`, `AddAssign`, `Neg`. -/
instance : Exponent Ratio where
  decEq := inferInstance
  one := ⟨1, 1⟩
  zero := ⟨0, 1⟩
  ofInt i := Ratio.int i
  add := Ratio.add
  mul := Ratio.mul
  neg := Ratio.neg

/-- The operations on conversion factors that resolution uses (`Magnitude`'s `from_f64(1.0)`, `*`, `/`,
`Exponent::float_pow`, `is_one`), so that the resolver can be run both on the code's floating-point magnitudes and on exact
numbers. -/
class MagOps (E M : Type) where
  one : M
  mul : M → M → M
  div : M → M → M
  pow : M → E → M
  isOne : M → Bool

/-- magnitude.rs:59-78 and dimension_exponent.rs:28-30: the magnitudes the code uses, integer exponents. -/
@[reducible] def magOpsInt (lib : FloatLib) : MagOps Int Magnitude where
  one := Magnitude.fromF64 (f64Fmt.ofInt 1)
  mul := Magnitude.mul lib
  div := Magnitude.div lib
  pow := Magnitude.floatPowInt lib
  isOne := Magnitude.isOne lib

/-- magnitude.rs:59-78 and ratio.rs:96-98: the magnitudes the code uses, rational exponents. -/
@[reducible] def magOpsRatio (lib : FloatLib) : MagOps Ratio Magnitude where
  one := Magnitude.fromF64 (f64Fmt.ofInt 1)
  mul := Magnitude.mul lib
  div := Magnitude.div lib
  pow := Magnitude.floatPowRatio lib
  isOne := Magnitude.isOne lib

end Diman
