import Verif.Model.Release
import Verif.Model.Api
import Verif.Model.Resolve
import Mathlib.Data.Int.ModEq
/-!
# Specification of C56: the same dimensions and types in another profile
`ψ` carries an exponent of the dev profile over to the release profile: the same number(s).
-/
namespace Diman
variable {E E' : Type}

/-- An `i64` is the same `i64` in the release profile. -/
def asRelease (n : Int) : RelInt := ⟨n⟩

/-- A `Ratio` is the same `Ratio` in the release profile. -/
def Ratio.asRelease (r : Ratio) : RelRatio := ⟨r.num, r.denom⟩

/-- A resolved dimension, entry by entry. -/
def Dims.carry (ψ : E → E') (d : Dims E) : Dims E' := d.map fun p => (p.1, ψ p.2)

/-- The same definitions in the same order: names, symbols, conversion factors and exponents. -/
structure CarriedDefs {M : Type} (ψ : E → E') (d : Defs E M) (d' : Defs E' M) : Prop where
  dimensionType : d'.dimensionType = d.dimensionType
  quantityType : d'.quantityType = d.quantityType
  baseDimensions : d'.baseDimensions = d.baseDimensions
  dimensions : d'.dimensions = d.dimensions.map fun x => ⟨x.name, x.dims.carry ψ⟩
  units : d'.units = d.units.map fun x => ⟨x.name, x.dims.carry ψ, x.mag, x.symbol, x.isBase⟩
  constants : d'.constants = d.constants.map fun x => ⟨x.name, x.dims.carry ψ, x.mag⟩

/-- A type. -/
def Ty.carry (ψ : E → E') : Ty E → Ty E'
  | .quantity s d => .quantity s (d.map ψ)
  | .bare s => .bare s
  | .unit d => .unit (d.map ψ)
  | .runtimeUnit d => .runtimeUnit (d.map ψ)
  | .bool => .bool
  | .ordering => .ordering

/-- An operand. -/
def OpTy.carry (ψ : E → E') (o : OpTy E) : OpTy E' := ⟨o.ref, o.ty.carry ψ⟩

/-- The outcome of an operator. -/
def OpOut.carry (ψ : E → E') : OpOut E → OpOut E'
  | .value t => .value (t.carry ψ)
  | .updated => .updated
  | .bool => .bool
  | .ordering => .ordering

/-- A call: the types it fixes by annotation carry over. -/
def Fn.carry (ψ : E → E') : Fn E → Fn E'
  | .newUnchecked d => .newUnchecked (d.map ψ)
  | .default s d => .default s (d.map ψ)
  | .sum s d => .sum s (d.map ψ)
  | .zero s d => .zero s (d.map ψ)
  | .value => .value | .valueRef => .valueRef | .deref => .deref | .valueUnchecked => .valueUnchecked
  | .valueUncheckedRef => .valueUncheckedRef | .valueIn => .valueIn | .from => .from | .neg => .neg | .abs => .abs
  | .dimensionless f => .dimensionless f | .squared => .squared | .cubed => .cubed | .powi i => .powi i | .sqrt => .sqrt | .cbrt => .cbrt
  | .min => .min | .max => .max | .clamp => .clamp | .isPositive => .isPositive | .isPositiveOrZero => .isPositiveOrZero
  | .isNegative => .isNegative | .isNegativeOrZero => .isNegativeOrZero | .isNan => .isNan | .vnew s => .vnew s
  | .newAxis a s => .newAxis a s | .axis a => .axis a | .setAxis a => .setAxis a | .length => .length | .distance => .distance
  | .distanceSquared => .distanceSquared | .normalize => .normalize | .dot => .dot | .unitNew => .unitNew | .unitMul => .unitMul
  | .unitDiv => .unitDiv

/-! ### What the exponents should be -/

mutual
/-- The exponent an expression has over the unbounded integers: add over products, subtract over quotients, multiply under powers. `ρ` gives the
exponents of the leaves. -/
def Expr.exactPower {T : Type} (ρ : T → Int) : Expr T RelInt → Int
  | .value f => f.exactPower ρ
  | .binary l .mul r => l.exactPower ρ + r.exactPower ρ
  | .binary l .div r => l.exactPower ρ - r.exactPower ρ
/-- The same for a factor. -/
def Factor.exactPower {T : Type} (ρ : T → Int) : Factor T RelInt → Int
  | .value v => ρ v
  | .power v e => ρ v * e.val
  | .paren e => e.exactPower ρ
end

/-- A literal has exponent zero in every base dimension, an identifier the exponent `ρ` gives it. -/
def Atom.power {C : Type} (ρ : Str → Int) : Atom C → Int
  | .concrete _ => 0
  | .other x => ρ x

/-- `ρ x k` is the exponent of base dimension `k` that the statements of the unit system prescribe for `x`, over the unbounded integers. -/
def Unresolved.Prescribes {M : Type} (u : UnresolvedDefs RelInt M) (ρ : Str → Str → Int) : Prop :=
  (∀ d ∈ u.dimensions, ∀ k, ρ d.name k = match d.rhs with
    | .base _ => if k = toSnakecase d.name then 1 else 0
    | .expression e => e.exactPower (Atom.power (ρ · k))) ∧
  (∀ x ∈ u.units, ∀ k, ρ x.name k = match x.definition with
    | .base d => ρ d k
    | .expression e => e.exactPower (Atom.power (ρ · k))) ∧
  (∀ c ∈ u.constants, ∀ k, ρ c.name k = c.rhs.exactPower (Atom.power (ρ · k)))

/-- The exponent of base dimension `k` in a resolved dimension (zero if it is not mentioned). -/
def Dims.powerOf (d : Dims RelInt) (k : Str) : Int :=
  match d.get k with
  | some v => v.val
  | none => 0

/-- The exponents of `d` are `i64`s, and they are those of `f` up to multiples of 2^64. -/
def Dims.Wrapped (d : Dims RelInt) (f : Str → Int) : Prop := ∀ k, IsI64 (d.powerOf k) ∧ d.powerOf k ≡ f k [ZMOD 18446744073709551616]

end Diman
