import Verif.Model.Parse
import Verif.Model.Api
/-!
# Integer exponents as fractions
What it means that the definitions, types and operators of a build with feature `rational-dimensions` include those of a build without.
-/
namespace Diman

/-- The integer `n` as the fraction `n/1`. -/
def asRatio (n : Int) : Ratio := ⟨n, 1⟩

/-- A dimension with integer exponents, in the build with fractions. -/
def Dims.asRatio (d : Dims Int) : Dims Ratio := d.map fun p => (p.1, Diman.asRatio p.2)

/-- The same definitions, in the same order, with every exponent `n` written as `n/1`. Conversion factors are left open. -/
structure SameDefinitions {M M' : Type} (d : Defs Int M) (d' : Defs Ratio M') : Prop where
  dimensionType : d'.dimensionType = d.dimensionType
  quantityType : d'.quantityType = d.quantityType
  baseDimensions : d'.baseDimensions = d.baseDimensions
  dimensions : List.Forall₂ (fun x y => y.name = x.name ∧ y.dims = x.dims.asRatio) d.dimensions d'.dimensions
  units : List.Forall₂ (fun x y => y.name = x.name ∧ y.symbol = x.symbol ∧ y.isBase = x.isBase ∧ y.dims = x.dims.asRatio) d.units d'.units
  constants : List.Forall₂ (fun x y => y.name = x.name ∧ y.dims = x.dims.asRatio) d.constants d'.constants

/-- The conversion factors agree too. -/
structure SameFactors {M : Type} (d : Defs Int M) (d' : Defs Ratio M) : Prop where
  units : List.Forall₂ (fun x y => y.mag = x.mag) d.units d'.units
  constants : List.Forall₂ (fun x y => y.mag = x.mag) d.constants d'.constants

/-- The two builds calculate with conversion factors in the same way: the same `1`, `*` and `/`, the same comparison with `1`, and raising to
the power `n/1` is raising to the power `n`. True of exact arithmetic; the floating-point code uses `powi` in one build and `powf` in the other. -/
structure SameArithmetic (M : Type) [MagOps Int M] [MagOps Ratio M] : Prop where
  one : (MagOps.one Ratio : M) = MagOps.one Int
  mul : ∀ a b : M, MagOps.mul Ratio a b = MagOps.mul Int a b
  div : ∀ a b : M, MagOps.div Ratio a b = MagOps.div Int a b
  pow : ∀ (a : M) (n : Int), MagOps.pow a (asRatio n) = MagOps.pow a n
  isOne : ∀ a : M, MagOps.isOne Ratio a = MagOps.isOne Int a

/-- A type of the integer build, in the build with fractions. -/
def Ty.asRatio : Ty Int → Ty Ratio
  | .quantity s d => .quantity s (d.map Diman.asRatio)
  | .bare s => .bare s
  | .unit d => .unit (d.map Diman.asRatio)
  | .runtimeUnit d => .runtimeUnit (d.map Diman.asRatio)
  | .bool => .bool
  | .ordering => .ordering

/-- An operand, likewise. -/
def OpTy.asRatio (o : OpTy Int) : OpTy Ratio := ⟨o.ref, o.ty.asRatio⟩

/-- The outcome of an operator, likewise. -/
def OpOut.asRatio : OpOut Int → OpOut Ratio
  | .value t => .value t.asRatio
  | .updated => .updated
  | .bool => .bool
  | .ordering => .ordering

/-- Every exponent in the type is strictly between `-2^63` and `2^63`. -/
def Ty.Moderate : Ty Int → Prop
  | .quantity _ d | .unit d | .runtimeUnit d => ∀ n ∈ d, -2 ^ 63 < n ∧ n < 2 ^ 63
  | _ => True

/-- A call of the integer build, in the build with fractions: the types it fixes by annotation carry over. -/
def Fn.asRatio : Fn Int → Fn Ratio
  | .newUnchecked d => .newUnchecked (d.map Diman.asRatio)
  | .default s d => .default s (d.map Diman.asRatio)
  | .sum s d => .sum s (d.map Diman.asRatio)
  | .zero s d => .zero s (d.map Diman.asRatio)
  | .value => .value | .valueRef => .valueRef | .deref => .deref | .valueUnchecked => .valueUnchecked
  | .valueUncheckedRef => .valueUncheckedRef | .valueIn => .valueIn | .from => .from | .neg => .neg | .abs => .abs
  | .dimensionless f => .dimensionless f | .squared => .squared | .cubed => .cubed | .powi i => .powi i | .sqrt => .sqrt | .cbrt => .cbrt
  | .min => .min | .max => .max | .clamp => .clamp | .isPositive => .isPositive | .isPositiveOrZero => .isPositiveOrZero
  | .isNegative => .isNegative | .isNegativeOrZero => .isNegativeOrZero | .isNan => .isNan | .vnew s => .vnew s
  | .newAxis a s => .newAxis a s | .axis a => .axis a | .setAxis a => .setAxis a | .length => .length | .distance => .distance
  | .distanceSquared => .distanceSquared | .normalize => .normalize | .dot => .dot | .unitNew => .unitNew | .unitMul => .unitMul
  | .unitDiv => .unitDiv

end Diman
