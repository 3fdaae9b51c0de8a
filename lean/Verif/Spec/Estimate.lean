import Verif.Model.Parse
import Verif.Spec.Float
/-!
# Error bookkeeping (C46, C47)
The exact value of a conversion factor, how many times a computation of it in `f64` has rounded, and whether all intermediate results
stayed well inside the range of `f64`. Nothing in the code keeps such books: they are a specification of how accurate the code is.
-/
namespace Diman

/-- Exact value, number of roundings, and whether nothing came near overflow, underflow or zero. -/
structure Estimate where
  value : ℚ
  roundings : Nat
  inRange : Bool
deriving DecidableEq, Repr

/-- Between `2^-900` and `2^900` in absolute value. -/
def moderate (q : ℚ) : Bool := decide (mkRat 1 (2 ^ 900) ≤ |q|) && decide (|q| ≤ ((2 ^ 900 : Nat) : ℚ))

/-- An operation has the exact result `q` and has rounded `n` times altogether. -/
def Estimate.result (q : ℚ) (n : Nat) (ok : Bool) : Estimate := ⟨q, n, ok && moderate q && decide (n ≤ 2 ^ 30)⟩

/-- Multiplication and division round once; `x^e` rounds at most `|e| - 1` times plus once for the reciprocal, besides multiplying the
roundings of `x`. -/
@[reducible] def estimateOps : MagOps Int Estimate where
  one := ⟨1, 0, true⟩
  mul a b := .result (a.value * b.value) (a.roundings + b.roundings + 1) (a.inRange && b.inRange)
  div a b := .result (a.value / b.value) (a.roundings + b.roundings + 1) (a.inRange && b.inRange)
  pow a e := .result (a.value ^ e) (e.natAbs * (a.roundings + 1) + 1) (a.inRange && decide (e.natAbs < 2 ^ 31))
  isOne a := decide (a.value = 1)

/-- Exact arithmetic on conversion factors. -/
@[reducible] def rationalOps : MagOps Int ℚ where
  one := 1
  mul := (· * ·)
  div := (· / ·)
  pow x e := x ^ e
  isOne x := decide (x = 1)

/-- The number a literal denotes. -/
def Number.exact : Number → ℚ
  | .int v => v
  | .float neg m e => (if neg then -1 else 1) * (m * (10 : ℚ) ^ e)

/-- Reading a literal rounds once. -/
def Number.estimate (n : Number) : Estimate := .result n.exact 1 true
/-- So does a prefix. -/
def Prefix.estimate (p : Prefix) : Estimate := .result p.literal 1 true

/-- `x` is `q` after at most `n` roundings, each by at most a relative `2^-53`, up or down. -/
def Close (n : Nat) (x q : ℚ) : Prop :=
  q ≠ 0 ∧ (1 - pow2 (-53)) ^ n ≤ x / q ∧ x / q * (1 - pow2 (-53)) ^ n ≤ 1

end Diman
