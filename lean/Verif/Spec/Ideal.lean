import Verif.Model.Api
import Mathlib.Analysis.SpecialFunctions.Pow.Real
import Mathlib.Analysis.SpecialFunctions.Sqrt
/-!
# Exact arithmetic
The primitive operations on real numbers: what `f32`, `f64`, glam and `Magnitude` would compute without rounding and overflow. The
transcendental functions of dimensionless numbers are left arbitrary (`IdealFns`): nothing proved with this instance depends on them.
-/
namespace Diman

/-- Arbitrary real functions standing for `ln`, `sin`, .... -/
class IdealFns where
  fn : FloatFn → FloatTy → ℝ → ℝ

/-- The real cube root. -/
noncomputable def realCbrt (x : ℝ) : ℝ := if 0 ≤ x then x ^ ((3 : ℝ)⁻¹) else -((-x) ^ ((3 : ℝ)⁻¹))

open Classical in
/-- Exact arithmetic on real numbers, with real conversion factors. -/
noncomputable instance idealPrims [IdealFns] : Prims ℝ ℝ where
  zero _ := 0
  one _ := 1
  add _ x y := x + y
  sub _ x y := x - y
  mul _ x y := x * y
  div _ x y := x / y
  neg _ x := -x
  abs _ x := |x|
  min _ x y := Min.min x y
  max _ x y := Max.max x y
  -- core: `assert!(min <= max)`
  clamp _ x a b := if a ≤ b then some (Max.max a (Min.min x b)) else none
  powi _ x i := x ^ i
  sqrt _ x := Real.sqrt x
  cbrt _ x := realCbrt x
  fn f t x := IdealFns.fn f t x
  eq _ x y := decide (x = y)
  lt _ x y := decide (x < y)
  isNan _ _ := false
  into _ m := m
  magMul m m' := m * m'
  magDiv m m' := m / m'

end Diman
