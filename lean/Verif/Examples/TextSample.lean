import Verif.Examples.Sample
import Verif.Proofs.TextStr
import Verif.Proofs.Exponent
/-!
# Exact rational numbers as an instance of the text model
Numbers are exact fractions, printed as `num/den`. Used to run the text model on concrete inputs and to show that the laws of `LawfulText`
can be met (the instance for IEEE floats is in `Proofs/SoftText.lean`).
-/
namespace Diman.Sample
open Diman

/-- Exact rational arithmetic; functions that the examples do not use are the identity. -/
@[reducible] def ratPrims : Prims ℚ ℚ where
  zero _ := 0
  one _ := 1
  add _ x y := x + y
  sub _ x y := x - y
  mul _ x y := x * y
  div _ x y := x / y
  neg _ x := -x
  abs _ x := |x|
  min _ x y := Min.min x y
  max _ x y := Max.max x y
  clamp _ x a b := if a ≤ b then some (Max.max a (Min.min x b)) else none
  powi _ x i := x ^ i
  sqrt _ x := x
  cbrt _ x := x
  fn _ _ x := x
  eq _ x y := decide (x = y)
  lt _ x y := decide (x < y)
  isNan _ _ := false
  into _ m := m
  magMul m m' := m * m'
  magDiv m m' := m / m'

/-- Any integer numeral. -/
def parseInt (s : Str) : Option Int :=
  if (splitSign s).2.isEmpty then none
  else (parseDigits 0 (splitSign s).2).map fun n => if (splitSign s).1 then -(n : Int) else n

/-- `num/den`, or an integer. -/
def parseRat (s : Str) : Option ℚ :=
  match splitBy (· = '/') s with
  | [a, b] => (parseInt a).bind fun x => (parseInt b).bind fun y => some (Rat.divInt x y)
  | [a] => (parseInt a).map fun x => (x : ℚ)
  | _ => none

/-- Text of exact fractions. -/
@[reducible] def ratText : TextPrims ℚ ℚ where
  showF _ x := showInt x.num ++ '/' :: showInt x.den
  parseF _ s := parseRat s
  ofInt _ i := i
  ofF64 _ x := x
  fromF64 x := x
  finite _ := true

theorem parseInt_showInt (i : Int) : parseInt (showInt i) = some i := by
  have hd := fun n => digitText_iff.1 (showNat_text n)
  have hsign : ∀ n, splitSign (showNat n) = (false, showNat n) := by
    intro n
    cases hs : showNat n with
    | nil => rfl
    | cons c cs =>
      obtain ⟨d, hd, he⟩ := digitText_chars (showNat_text n) (c := c) (by rw [hs]; simp)
      have := digitChar_props hd
      simp only [splitSign]
      rw [if_neg (by rw [he]; exact this.2.2.2.1), if_neg (by rw [he]; exact this.2.2.1)]
  unfold parseInt showInt
  split
  · have e : splitSign ('-' :: showNat i.natAbs) = (true, showNat i.natAbs) := rfl
    rw [e]
    simp only
    rw [if_neg (by simpa using (hd _).1), (hd _).2]
    exact congrArg some (show -(i.natAbs : Int) = i by omega)
  · rw [hsign]
    simp only
    rw [if_neg (by simpa using (hd _).1), (hd _).2]
    exact congrArg some (by simp; omega)

attribute [local instance] exactMag ratPrims ratText

/-- Exact fractions satisfy the laws of text and numbers. -/
@[reducible] def ratLawful : LawfulText Int ℚ ℚ where
  Valid _ _ := True
  parse_show {t x} _ := by
    have hns : ∀ i : Int, ∀ c ∈ showInt i, (decide (c = '/')) = false := fun i c hc => by
      simpa using (showInt_chars hc).2.2
    show parseRat (showInt x.num ++ '/' :: showInt x.den) = some x
    unfold parseRat
    rw [splitBy_sep (hns _) (by simp), splitBy_none (hns _)]
    simp only [parseInt_showInt, Option.bind_some]
    rw [Rat.divInt_ofNat, Rat.mkRat_self]
  show_plain {t x} _ := by
    refine ⟨List.append_ne_nil_of_right_ne_nil _ (by simp), fun c hc => ?_⟩
    rcases List.mem_append.1 hc with hc | hc
    · exact ⟨(showInt_chars hc).1, (showInt_chars hc).2.1⟩
    · rcases List.mem_cons.1 hc with rfl | hc
      · decide
      · exact ⟨(showInt_chars hc).1, (showInt_chars hc).2.1⟩
  one_isOne := by decide
  isOne_into h := of_decide_eq_true h
  one_finite := rfl
  pow_one {i} _ := one_zpow i
  one_mul_one := mul_one (1 : ℚ)
  ofF64_one _ := rfl
  mul_one _ := mul_one _
  one_mul _ := one_mul _

instance : LawfulShow Int := ⟨fun _ => rfl⟩

end Diman.Sample
