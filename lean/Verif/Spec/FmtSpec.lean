import Verif.Model.FmtSpec
import Verif.Spec.FloatText
/-!
# Specification vocabulary for format options (C73)
-/
namespace Diman

/-- `s` writes the number `q` with exactly `p` decimals, without superfluous zeros in front: `0`, `12.50`, `0.05`. -/
def FixedDecimal (s : Str) (p : Nat) (q : ℚ) : Prop :=
  ∃ i f : List Nat,
    (∀ d ∈ i ++ f, d < 10) ∧
    (i = [0] ∨ ∃ d ds, i = d :: ds ∧ d ≠ 0) ∧
    f.length = p ∧
    s = i.map digitChar ++ (if p = 0 then [] else '.' :: f.map digitChar) ∧
    q = ((Nat.ofDigits 10 (i ++ f).reverse : Nat) : ℚ) / 10 ^ p

/-- `q` is the best approximation of `x` with `p` decimals; of two equally good ones, the one with an even last digit. -/
def NearestDecimal (p : Nat) (q x : ℚ) : Prop :=
  ∃ k : Nat, q = k / 10 ^ p ∧ ∀ m : Nat, m ≠ k → |q - x| < |m / 10 ^ p - x| ∨ (|q - x| = |m / 10 ^ p - x| ∧ k % 2 = 0)

/-- What is read from a number written with options: the number itself if no precision was given (and infinities and NaN in any case); else the float
nearest to the decimal that was written, which is the decimal with that many places nearest to the number. -/
def ReadBack (o : FmtSpec) (t : FloatTy) (x y : Fl) : Prop :=
  ((o.precision = none ∨ x = .nan ∨ ∃ neg, x = .num neg t.fmt.infBits) → y = x) ∧
  ∀ p neg n, o.precision = some p → x = .num neg n → n < t.fmt.infBits →
    ∃ q, FixedDecimal (o.body t.fmt x) p q ∧ NearestDecimal p q (t.fmt.mag n) ∧ y = .num neg (t.fmt.round q)

end Diman
