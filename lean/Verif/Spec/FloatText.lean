import Verif.Model.CoreText
import Verif.Spec.Text
import Verif.Spec.Float
import Mathlib.Algebra.Order.Field.Power
/-!
# Specification vocabulary for the text of floats (C57)
-/
namespace Diman

/-- `s` is an unsigned decimal numeral with value `q`, whose exponent (the number after `e`, or 0) is `e`: `12`, `12.`, `.5`, `1.5e-3`. -/
def DecimalNumeral (s : Str) (e : Int) (q : ℚ) : Prop :=
  ∃ (i f : List Nat) (point exponent : Str),
    s = i.map digitChar ++ (point ++ exponent) ∧
    (point = [] ∧ f = [] ∨ point = '.' :: f.map digitChar) ∧
    (∀ d ∈ i ++ f, d < 10) ∧ i ++ f ≠ [] ∧
    (exponent = [] ∧ e = 0 ∨ ∃ c t, exponent = c :: t ∧ (c = 'e' ∨ c = 'E') ∧ IntNumeral t e) ∧
    q = ((Nat.ofDigits 10 (i ++ f).reverse : Nat) : ℚ) * 10 ^ (e - f.length)

/-- An optional sign (`neg`: a minus) and the rest. -/
def SignedText (s : Str) (neg : Bool) (t : Str) : Prop :=
  (neg = false ∧ s = t ∧ t.head? ≠ some '+' ∧ t.head? ≠ some '-') ∨ (neg = false ∧ s = '+' :: t) ∨ (neg = true ∧ s = '-' :: t)

/-- `s` writes the number `q` out in full, without exponent and without superfluous zeros or a superfluous point: `0`, `120`, `0.05`, `12.5`. -/
def PlainDecimal (s : Str) (q : ℚ) : Prop :=
  ∃ i f : List Nat,
    (∀ d ∈ i ++ f, d < 10) ∧
    (i = [0] ∨ ∃ d ds, i = d :: ds ∧ d ≠ 0) ∧
    (f = [] ∧ s = i.map digitChar ∨ (∃ ds d, f = ds ++ [d] ∧ d ≠ 0) ∧ s = i.map digitChar ++ '.' :: f.map digitChar) ∧
    q = ((Nat.ofDigits 10 (i ++ f).reverse : Nat) : ℚ) / 10 ^ f.length

/-- `m · 10^e` is a decimal that is read as the float with bits `n`: it is closer to it than to any other float (ties to even). -/
def Fmt.ReadsAs (f : Fmt) (m : Nat) (e : Int) (n : Nat) : Prop := f.round ((m : ℚ) * 10 ^ e) = n

end Diman
