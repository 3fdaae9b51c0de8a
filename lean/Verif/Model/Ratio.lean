import Verif.Model.Int64
import Verif.Model.Str
/-!
# `diman_lib::ratio` — rational dimension exponents
Models crates/diman_lib/src/ratio.rs.
-/
namespace Diman

/-- ratio.rs:3-14 `struct Ratio { num: i64, denom: i64 }`; `PartialEq` is derived, i.e. structural. -/
structure Ratio where
  num : Int
  denom : Int
deriving DecidableEq, Repr

/-- ratio.rs:16-22: the `while b != 0` loop of `gcd`, returning the final `a` (before `.abs()`). -/
def gcdLoop (a b : Int) : Option Int :=
  if _h : b = 0 then some a
  else if a = i64Min ∧ b = -1 then none
  else gcdLoop b (a.tmod b)
termination_by b.natAbs
decreasing_by
  have := Int.tmod_lt_of_pos a (b := (b.natAbs : Int)) (by omega)
  have h2 := Int.natAbs_tmod a b
  rw [h2]; exact Nat.mod_lt _ (by omega)

/-- ratio.rs:16-23 `const fn gcd(mut a: i64, mut b: i64) -> i64`; `abs` overflows on `i64::MIN`. -/
def gcd (a b : Int) : Option Int := do
  let r ← gcdLoop a b
  i64 r.natAbs

namespace Ratio

/-- ratio.rs:26-28 `Ratio::int` -/
def int (n : Int) : Ratio := ⟨n, 1⟩

/-- ratio.rs:38-44 `Ratio::new`: divide both components by the gcd. Panics on `gcd = 0` (that is, on `0/0`). -/
def new (num denom : Int) : Option Ratio := do
  let g ← gcd num denom
  let n ← i64Div num g
  let d ← i64Div denom g
  return ⟨n, d⟩

/-- ratio.rs:46-50 `Ratio::powi`: multiplies *both* components by the exponent. -/
def powi (r : Ratio) (exp : Int) : Option Ratio := do
  let n ← i64 (r.num * exp)
  let d ← i64 (r.denom * exp)
  new n d

/-- ratio.rs:52-56 `Ratio::add`, and identically ratio.rs:123-129 `AddAssign`. -/
def add (a b : Ratio) : Option Ratio := do
  let x ← i64 (a.num * b.denom)
  let y ← i64 (b.num * a.denom)
  let n ← i64 (x + y)
  let d ← i64 (a.denom * b.denom)
  new n d

/-- ratio.rs:62-67 `Ratio::neg`, and identically ratio.rs:131-140 `Neg`. Overflows on `i64::MIN`. -/
def neg (a : Ratio) : Option Ratio := do
  let n ← i64 (-a.num)
  return ⟨n, a.denom⟩

/-- ratio.rs:58-60 `Ratio::sub` -/
def sub (a b : Ratio) : Option Ratio := do
  let nb ← neg b
  add a nb

/-- ratio.rs:69-73 `Ratio::mul`, and identically ratio.rs:115-121 `Mul`. -/
def mul (a b : Ratio) : Option Ratio := do
  let n ← i64 (a.num * b.num)
  let d ← i64 (a.denom * b.denom)
  new n d

/-- ratio.rs:79-84 `Ratio::inv`: swaps the components without looking at signs. -/
def inv (a : Ratio) : Ratio := ⟨a.denom, a.num⟩

/-- ratio.rs:75-77 `Ratio::div` -/
def div (a b : Ratio) : Option Ratio := mul a (inv b)

end Ratio
end Diman
