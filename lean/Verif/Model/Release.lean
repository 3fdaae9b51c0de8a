import Verif.Model.Parse
import Verif.Model.Text
/-!
# Exponents in the release profile
The release profile switches off overflow checks, in the macro (proc macros inherit `overflow-checks` from the profile being built) and in the
`const fn`s of the generated code: `+`, `-`, `*`, unary `-` and `abs` of `i64` wrap around. Division by zero and `i64::MIN / -1`, `i64::MIN % -1`
panic in every profile. The same code as in `Model/Ratio`, `Model/Exponent` and `Model/DimType` (dev profile), with wrapping operations.
-/
namespace Diman

/-- The `i64` with the same lowest 64 bits. -/
def wrap64 (x : Int) : Int := (x + 9223372036854775808) % 18446744073709551616 - 9223372036854775808

/-- An `i64` exponent in the release profile. -/
structure RelInt where
  val : Int
deriving DecidableEq, Repr

/-- dimension_exponent.rs:19-35 -/
instance : Exponent RelInt where
  decEq := inferInstance
  one := ⟨1⟩
  zero := ⟨0⟩
  ofInt i := ⟨i⟩
  add a b := some ⟨wrap64 (a.val + b.val)⟩
  mul a b := some ⟨wrap64 (a.val * b.val)⟩
  neg a := some ⟨wrap64 (-a.val)⟩

/-- dimension_type.rs:72-133; the checks before roots are explicit `panic!`s. -/
instance : FieldOps RelInt where
  entry a := some a
  zero := ⟨0⟩
  add a b := some ⟨wrap64 (a.val + b.val)⟩
  sub a b := some ⟨wrap64 (a.val - b.val)⟩
  neg a := some ⟨wrap64 (-a.val)⟩
  mul a n := some ⟨wrap64 (a.val * n)⟩
  div2 a := if a.val.tmod 2 ≠ 0 then none else some ⟨a.val.tdiv 2⟩
  div3 a := if a.val.tmod 3 ≠ 0 then none else some ⟨a.val.tdiv 3⟩

/-- parse/mod.rs:183-186: parsing a literal checks its range in every profile. -/
instance : ReadExponent RelInt where
  rational := false
  read x := some ⟨x.num⟩

/-- core, `Display for i64` -/
instance : ShowExponent RelInt := ⟨fun a => showInt a.val⟩

/-- Conversion factors are floats, for which the profile makes no difference; dimension_exponent.rs:28-30. -/
instance {M : Type} [MagOps Int M] : MagOps RelInt M where
  one := MagOps.one Int
  mul := MagOps.mul Int
  div := MagOps.div Int
  pow m e := MagOps.pow m e.val
  isOne := MagOps.isOne Int

/-- ratio.rs:3-14 in the release profile. -/
structure RelRatio where
  num : Int
  denom : Int
deriving DecidableEq, Repr

namespace RelRatio
/-- ratio.rs:16-23 `gcd`; `i64::MIN.abs()` wraps to itself. -/
def gcd (a b : Int) : Option Int := do
  let r ← gcdLoop a b
  return wrap64 r.natAbs

/-- ratio.rs:26-28 -/
def int (n : Int) : RelRatio := ⟨n, 1⟩

/-- ratio.rs:38-44 `Ratio::new` -/
def new (num denom : Int) : Option RelRatio := do
  let g ← gcd num denom
  let n ← i64Div num g
  let d ← i64Div denom g
  return ⟨n, d⟩

/-- ratio.rs:52-56 `Ratio::add`, 123-129 `AddAssign` -/
def add (a b : RelRatio) : Option RelRatio :=
  new (wrap64 (wrap64 (a.num * b.denom) + wrap64 (b.num * a.denom))) (wrap64 (a.denom * b.denom))

/-- ratio.rs:62-67 `Ratio::neg`, 131-140 `Neg` -/
def neg (a : RelRatio) : RelRatio := ⟨wrap64 (-a.num), a.denom⟩

/-- ratio.rs:58-60 `Ratio::sub` -/
def sub (a b : RelRatio) : Option RelRatio := add a (neg b)

/-- ratio.rs:69-73 `Ratio::mul`, 115-121 `Mul` -/
def mul (a b : RelRatio) : Option RelRatio := new (wrap64 (a.num * b.num)) (wrap64 (a.denom * b.denom))

/-- ratio.rs:79-84 `Ratio::inv` -/
def inv (a : RelRatio) : RelRatio := ⟨a.denom, a.num⟩

/-- ratio.rs:75-77 `Ratio::div` -/
def div (a b : RelRatio) : Option RelRatio := mul a (inv b)
end RelRatio

/-- ratio.rs:87-104, 115-140 -/
instance : Exponent RelRatio where
  decEq := inferInstance
  one := ⟨1, 1⟩
  zero := ⟨0, 1⟩
  ofInt i := RelRatio.int i
  add := RelRatio.add
  mul := RelRatio.mul
  neg a := some a.neg

/-- dimension_type.rs:15-70 -/
instance : FieldOps RelRatio where
  entry a := RelRatio.new a.num a.denom
  zero := RelRatio.int 0
  add := RelRatio.add
  sub := RelRatio.sub
  neg a := some a.neg
  mul a n := RelRatio.mul a (RelRatio.int n)
  div2 a := RelRatio.div a (RelRatio.int 2)
  div3 a := RelRatio.div a (RelRatio.int 3)

/-- parse/mod.rs:178-181 -/
instance : ReadExponent RelRatio where
  rational := true
  read x := RelRatio.new x.num (x.denom.getD 1)

/-- ratio.rs:105-113 `Display` -/
instance : ShowExponent RelRatio := ⟨fun r => if r.denom = 1 then showInt r.num else showInt r.num ++ '/' :: showInt r.denom⟩

/-- Conversion factors; ratio.rs:96-98 `float_pow` (float arithmetic). -/
instance {M : Type} [MagOps Ratio M] : MagOps RelRatio M where
  one := MagOps.one Ratio
  mul := MagOps.mul Ratio
  div := MagOps.div Ratio
  pow m e := MagOps.pow m (⟨e.num, e.denom⟩ : Ratio)
  isOne := MagOps.isOne Ratio

end Diman
