import Verif.Proofs.DimType
import Mathlib.Tactic.Linarith
import Mathlib.Tactic.Positivity
/-! When the field operations of the generated dimension type do not overflow. -/
set_option linter.unusedSectionVars false
namespace Diman
open LawfulExponent

/-- `L` is a common denominator of `q`. -/
def DenomDvd (L : Nat) (q : ℚ) : Prop := ∃ z : Int, q * L = z

theorem DenomDvd.mul {L : Nat} {q : ℚ} (h : DenomDvd L q) (n : Int) : DenomDvd L (q * n) := by
  obtain ⟨z, hz⟩ := h
  exact ⟨z * n, by push_cast; rw [← hz]; ring⟩

theorem DenomDvd.add {L : Nat} {p q : ℚ} (hp : DenomDvd L p) (hq : DenomDvd L q) : DenomDvd L (p + q) := by
  obtain ⟨y, hy⟩ := hp
  obtain ⟨z, hz⟩ := hq
  exact ⟨y + z, by push_cast; rw [← hy, ← hz]; ring⟩

theorem DenomDvd.zero (L : Nat) : DenomDvd L 0 := ⟨0, by simp⟩

/-- Multiplication and addition of exponents succeed as long as everything stays small. -/
class TotalFields (E : Type) [Exponent E] [LawfulExponent E] [FieldOps E] : Prop where
  mul_isSome : ∀ {a : E} {n : Int} {L : Nat}, 0 < L → L < 2 ^ 63 → Canon a → DenomDvd L (val a) → |val a * n| * L < 2 ^ 63 →
    (FieldOps.mul a n).isSome
  add_isSome : ∀ {a b : E} {L : Nat}, 0 < L → L ^ 2 < 2 ^ 63 → Canon a → Canon b → DenomDvd L (val a) → DenomDvd L (val b) →
    (|val a| + |val b|) * L ^ 2 < 2 ^ 63 → (FieldOps.add a b).isSome

theorem i64_isSome {x : Int} (h : |(x : ℚ)| < 2 ^ 63) : i64 x = some x := by
  have h2 : |x| < 2 ^ 63 := by exact_mod_cast h
  obtain ⟨h3, h4⟩ := abs_lt.1 h2
  exact i64_of ⟨by unfold i64Min; omega, by unfold i64Max; omega⟩

instance : TotalFields Int where
  mul_isSome {a n L} hL _ _ _ h := by
    have h1 : (1 : ℚ) ≤ L := by exact_mod_cast hL
    have : |((a * n : Int) : ℚ)| < 2 ^ 63 := by
      refine lt_of_le_of_lt ?_ h
      push_cast
      exact le_mul_of_one_le_right (abs_nonneg _) h1
    show (i64 (a * n)).isSome
    rw [i64_isSome this]; rfl
  add_isSome {a b L} hL _ _ _ _ _ h := by
    have h1 : (1 : ℚ) ≤ (L : ℚ) ^ 2 := one_le_pow₀ (by exact_mod_cast hL)
    have : |((a + b : Int) : ℚ)| < 2 ^ 63 := by
      refine lt_of_le_of_lt ?_ h
      push_cast
      refine (abs_add_le _ _).trans ?_
      exact le_mul_of_one_le_right (add_nonneg (abs_nonneg _) (abs_nonneg _)) h1
    show (i64 (a + b)).isSome
    rw [i64_isSome this]; rfl

theorem Ratio.denom_le {a : Ratio} (ha : a.Canonical) {L : Nat} (hL : 0 < L) (h : DenomDvd L a.val) : (a.denom : ℚ) ≤ L := by
  obtain ⟨z, hz⟩ := h
  have hd : (a.denom : ℚ) ≠ 0 := by exact_mod_cast ne_of_gt ha.1
  have h1 : a.num * L = z * a.denom := by
    have : (a.num : ℚ) * L = z * a.denom := by
      rw [← hz]; unfold Ratio.val; field_simp
    exact_mod_cast this
  have h2 : a.denom ∣ a.num * L := ⟨z, by rw [h1]; ring⟩
  have h3 : a.denom ∣ (L : Int) := Int.dvd_of_dvd_mul_right_of_gcd_one h2 (by rw [Int.gcd_comm]; exact ha.2)
  have := Int.le_of_dvd (by exact_mod_cast hL) h3
  exact_mod_cast this

theorem Ratio.num_eq {a : Ratio} (ha : a.Canonical) : (a.num : ℚ) = a.val * a.denom := by
  have hd : (a.denom : ℚ) ≠ 0 := by exact_mod_cast ne_of_gt ha.1
  unfold Ratio.val; field_simp

theorem fitsAbs_of {x : Int} (h : |(x : ℚ)| < 2 ^ 63) : FitsAbs x := by
  have h2 : |x| < 2 ^ 63 := by exact_mod_cast h
  obtain ⟨h3, h4⟩ := abs_lt.1 h2
  rw [FitsAbs.iff]; omega

instance : TotalFields Ratio where
  mul_isSome {a n L} hL hL2 ha hd h := by
    have hle := Ratio.denom_le ha hL hd
    have hpos : (0 : ℚ) < a.denom := by exact_mod_cast ha.1
    have hx : |((a.num * n : Int) : ℚ)| < 2 ^ 63 := by
      push_cast
      rw [Ratio.num_eq ha]
      refine lt_of_le_of_lt ?_ h
      rw [show a.val * (a.denom : ℚ) * n = a.val * n * a.denom by ring, abs_mul, abs_of_pos hpos]
      exact mul_le_mul_of_nonneg_left hle (abs_nonneg _)
    have hy : |((a.denom * 1 : Int) : ℚ)| < 2 ^ 63 := by
      push_cast
      rw [mul_one, abs_of_pos hpos]
      exact lt_of_le_of_lt hle (by exact_mod_cast hL2)
    show (Ratio.mul a (Ratio.int n)).isSome
    unfold Ratio.mul
    simp only [Ratio.int, i64_isSome hx, i64_isSome hy, Option.bind_eq_bind, Option.bind_some]
    obtain ⟨r, hr⟩ := Ratio.new_isSome (fitsAbs_of hx) (fitsAbs_of hy) (.inr (by have := ha.1; omega))
    rw [hr]; rfl
  add_isSome {a b L} hL hL2 ha hb hda hdb h := by
    have hle := Ratio.denom_le ha hL hda
    have hle' := Ratio.denom_le hb hL hdb
    have hpos : (0 : ℚ) < a.denom := by exact_mod_cast ha.1
    have hpos' : (0 : ℚ) < b.denom := by exact_mod_cast hb.1
    have hLL : (a.denom : ℚ) * b.denom ≤ L ^ 2 := by
      rw [sq]; exact mul_le_mul hle hle' hpos'.le (by positivity)
    have hx : |((a.num * b.denom : Int) : ℚ)| ≤ |a.val| * L ^ 2 := by
      push_cast
      rw [Ratio.num_eq ha, mul_assoc, abs_mul, abs_of_pos (mul_pos hpos hpos')]
      exact mul_le_mul_of_nonneg_left hLL (abs_nonneg _)
    have hy : |((b.num * a.denom : Int) : ℚ)| ≤ |b.val| * L ^ 2 := by
      push_cast
      rw [Ratio.num_eq hb, mul_assoc, mul_comm (b.denom : ℚ), abs_mul, abs_of_pos (mul_pos hpos hpos')]
      exact mul_le_mul_of_nonneg_left hLL (abs_nonneg _)
    have h : |a.val| * L ^ 2 + |b.val| * L ^ 2 < (2 : ℚ) ^ 63 := by rw [← add_mul]; exact h
    have hna : 0 ≤ |a.val| * (L : ℚ) ^ 2 := by positivity
    have hnb : 0 ≤ |b.val| * (L : ℚ) ^ 2 := by positivity
    have hs : |((a.num * b.denom + b.num * a.denom : Int) : ℚ)| < 2 ^ 63 := by
      rw [Int.cast_add]
      exact lt_of_le_of_lt ((abs_add_le _ _).trans (add_le_add hx hy)) h
    have hd : |((a.denom * b.denom : Int) : ℚ)| < 2 ^ 63 := by
      push_cast
      rw [abs_of_pos (mul_pos hpos hpos')]
      exact lt_of_le_of_lt hLL (by exact_mod_cast hL2)
    show (Ratio.add a b).isSome
    unfold Ratio.add
    simp only [i64_isSome (lt_of_le_of_lt hx (by linarith)), i64_isSome (lt_of_le_of_lt hy (by linarith)), i64_isSome hs, i64_isSome hd,
      Option.bind_eq_bind, Option.bind_some]
    obtain ⟨r, hr⟩ := Ratio.new_isSome (fitsAbs_of hs) (fitsAbs_of hd) (.inr (by
      have := mul_pos ha.1 hb.1; omega))
    rw [hr]; rfl

end Diman
