import Verif.Spec.Estimate
import Mathlib.Analysis.SpecialFunctions.Pow.Real
/-!
# Error bookkeeping with fractional powers (C47, feature `rational-dimensions`)
As in `Spec/Estimate.lean`, with real numbers, because `x^(n/d)` need not be rational.
-/
namespace Diman

/-- What is assumed of the platform's `powf` on `f64` (`std` or the `libm` crate): the result is within `3/4` of a unit in the last place,
that is a relative `3 × 2^-54`, wherever it is well inside the range; negative bases are allowed with integral exponents; `x^0 = 1`. -/
structure PowfAccurate (powf : Fl → Fl → Fl) : Prop where
  accurate : ∀ (x y : Fl) (v w : ℚ), f64Fmt.val x = some v → f64Fmt.val y = some w → (0 < v ∨ v ≠ 0 ∧ ∃ n : Int, w = n) →
    (2 : ℝ) ^ (-930 : Int) ≤ |(v : ℝ) ^ (w : ℝ)| → |(v : ℝ) ^ (w : ℝ)| ≤ 2 ^ (930 : Int) →
    ∃ z, f64Fmt.val (powf x y) = some z ∧ |(z : ℝ) - (v : ℝ) ^ (w : ℝ)| ≤ 3 * 2 ^ (-54 : Int) * |(v : ℝ) ^ (w : ℝ)|
  zero : ∀ (x : Fl) (s : Bool), powf x (.num s 0) = f64Fmt.ofInt 1

/-- Exact value, number of roundings, and whether nothing came near overflow, underflow or zero. -/
structure RealEstimate where
  value : ℝ
  roundings : Nat
  inRange : Prop

/-- Between `2^-900` and `2^900` in absolute value. -/
def Moderate (q : ℝ) : Prop := (2 : ℝ) ^ (-900 : Int) ≤ |q| ∧ |q| ≤ 2 ^ (900 : Int)

/-- An operation has the exact result `q` and has rounded `n` times altogether. -/
def RealEstimate.result (q : ℝ) (n : Nat) (ok : Prop) : RealEstimate := ⟨q, n, ok ∧ Moderate q ∧ n ≤ 2 ^ 30⟩

/-- The number a fraction denotes. -/
noncomputable def Ratio.real (r : Ratio) : ℝ := r.num / r.denom

/-- How much it costs that the fraction in `q^(n/d)` is itself rounded to an `f64`: nothing if `d` is a power of two. -/
noncomputable def exponentRoundings (q : ℝ) (r : Ratio) : Nat := open Classical in
  if ∃ k : Nat, r.denom = 2 ^ k then 0 else ⌈|r.real * Real.log q|⌉₊

/-- Exact arithmetic on conversion factors. -/
@[reducible] noncomputable def realOps : MagOps Ratio ℝ where
  one := 1
  mul := (· * ·)
  div := (· / ·)
  pow x e := x ^ e.real
  isOne x := open Classical in decide (x = 1)

/-- Multiplication and division round once. `x^r` multiplies the roundings of `x` by `|r|`, rounds the fraction `r`, and then amounts to two
more roundings. -/
@[reducible] noncomputable def realEstimateOps : MagOps Ratio RealEstimate where
  one := ⟨1, 0, True⟩
  mul a b := .result (a.value * b.value) (a.roundings + b.roundings + 1) (a.inRange ∧ b.inRange)
  div a b := .result (a.value / b.value) (a.roundings + b.roundings + 1) (a.inRange ∧ b.inRange)
  pow a e := .result (a.value ^ e.real) (⌈|e.real|⌉₊ * a.roundings + exponentRoundings a.value e + 2)
    (a.inRange ∧ (0 < a.value ∨ e.denom = 1) ∧ e.num.natAbs < 2 ^ 31 ∧ 0 < e.denom ∧ e.denom < 2 ^ 31)
  isOne a := open Classical in decide (a.value = 1)

/-- Literals and prefixes round once. -/
def Number.realEstimate (n : Number) : RealEstimate := .result n.exact 1 True
def Prefix.realEstimate (p : Prefix) : RealEstimate := .result p.literal 1 True

/-- `x` is `q` after at most `n` roundings, each by at most a relative `2^-53`, up or down. -/
def CloseR (n : Nat) (x q : ℝ) : Prop :=
  q ≠ 0 ∧ (1 - 2 ^ (-53 : Int)) ^ n ≤ x / q ∧ x / q * (1 - 2 ^ (-53 : Int)) ^ n ≤ 1

end Diman
