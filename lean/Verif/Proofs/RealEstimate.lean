import Verif.Spec.RealEstimate
import Verif.Proofs.Estimate
/-! How rounding errors accumulate when powers are fractional. -/
namespace Diman
open Real

/-- One rounding keeps at least this factor. -/
noncomputable abbrev keepR : ℝ := 1 - 2 ^ (-53 : Int)
theorem keepR_pos : 0 < keepR := by rw [keepR]; norm_num
theorem keepR_lt : keepR < 1 := by rw [keepR]; norm_num
/-- What one rounding costs on a logarithmic scale. -/
noncomputable abbrev cost : ℝ := -log keepR
theorem cost_pos : 0 < cost := neg_pos.2 (log_neg keepR_pos keepR_lt)
theorem cost_ge : (2 : ℝ) ^ (-53 : Int) ≤ cost := by
  have := log_le_sub_one_of_pos keepR_pos
  rw [cost, keepR] at *; linarith

theorem closeR_iff {n : Nat} {x q : ℝ} : CloseR n x q ↔ 0 < x / q ∧ |log (x / q)| ≤ n * cost := by
  have hk := pow_pos keepR_pos n
  have hlk : log (keepR ^ n) = -(n * cost) := by rw [log_pow, cost]; ring
  constructor
  · rintro ⟨h0, h1, h2⟩
    have hr : 0 < x / q := lt_of_lt_of_le hk h1
    refine ⟨hr, abs_le.2 ⟨?_, ?_⟩⟩
    · rw [← hlk]; exact log_le_log hk h1
    · have := log_le_log (mul_pos hr hk) h2
      rw [log_mul hr.ne' hk.ne', hlk, log_one] at this; linarith
  · rintro ⟨hr, h⟩
    rw [abs_le] at h
    refine ⟨?_, ?_, ?_⟩
    · rintro rfl; simp at hr
    · rw [← log_le_log_iff hk hr, hlk]; exact h.1
    · rw [← log_le_log_iff (mul_pos hr hk) one_pos, log_mul hr.ne' hk.ne', hlk, log_one]; linarith [h.2]

theorem CloseR.q_ne {n : Nat} {x q : ℝ} (h : CloseR n x q) : q ≠ 0 := h.1
theorem CloseR.pos {n : Nat} {x q : ℝ} (h : CloseR n x q) : 0 < x / q := (closeR_iff.1 h).1
theorem CloseR.ne {n : Nat} {x q : ℝ} (h : CloseR n x q) : x ≠ 0 := by have := h.pos; rintro rfl; simp at this
theorem CloseR.refl {q : ℝ} (h : q ≠ 0) : CloseR 0 q q := ⟨h, by simp [h], by simp [h]⟩
theorem CloseR.mono {n m : Nat} {x q : ℝ} (h : CloseR n x q) (hnm : n ≤ m) : CloseR m x q := by
  rw [closeR_iff] at *
  refine ⟨h.1, le_trans h.2 (mul_le_mul_of_nonneg_right (by exact_mod_cast hnm) cost_pos.le)⟩
theorem CloseR.mul {n m : Nat} {x q y p : ℝ} (h : CloseR n x q) (h' : CloseR m y p) : CloseR (n + m) (x * y) (q * p) := by
  rw [closeR_iff] at *
  rw [mul_div_mul_comm, log_mul h.1.ne' h'.1.ne']
  refine ⟨mul_pos h.1 h'.1, le_trans (abs_add_le _ _) ?_⟩
  push_cast; rw [add_mul]; exact add_le_add h.2 h'.2
theorem CloseR.inv {n : Nat} {x q : ℝ} (h : CloseR n x q) : CloseR n x⁻¹ q⁻¹ := by
  rw [closeR_iff] at *
  rw [inv_div_inv, ← inv_div, log_inv, abs_neg]
  exact ⟨inv_pos.2 h.1, h.2⟩
theorem CloseR.div {n m : Nat} {x q y p : ℝ} (h : CloseR n x q) (h' : CloseR m y p) : CloseR (n + m) (x / y) (q / p) := by
  rw [div_eq_mul_inv, div_eq_mul_inv]; exact h.mul h'.inv
theorem CloseR.trans {n m : Nat} {x y q : ℝ} (h : CloseR n x y) (h' : CloseR m y q) : CloseR (n + m) x q := by
  have hy := h.1
  have := h.mul h'
  rw [closeR_iff] at this ⊢
  have e : x * y / (y * q) = x / q := by rw [mul_comm y q, mul_div_mul_right _ _ hy]
  rwa [e] at this

theorem cast_pow2 (e : Int) : ((pow2 e : ℚ) : ℝ) = (2 : ℝ) ^ e := by rw [pow2_eq]; push_cast; rfl
theorem close_cast {n : Nat} {x q : ℚ} : Close n x q ↔ CloseR n (x : ℝ) (q : ℝ) := by
  unfold Close CloseR
  rw [← cast_pow2]
  refine and_congr (by simp) (and_congr ?_ ?_)
  · rw [← Rat.cast_le (K := ℝ)]; push_cast; rfl
  · rw [← Rat.cast_le (K := ℝ)]; push_cast; rfl

/-- What a bounded number of roundings amounts to. -/
theorem CloseR.err {n : Nat} {x q : ℝ} (h : CloseR n x q) (hn : n ≤ 2 ^ 30) : |x - q| ≤ n / 2 ^ 52 * |q| := by
  obtain ⟨a0, a1, a2⟩ := h
  have hu : (n : ℝ) * 2 ^ (-53 : Int) ≤ 1 / 4 := by
    have : (n : ℝ) ≤ 2 ^ 30 := by exact_mod_cast hn
    calc (n : ℝ) * 2 ^ (-53 : Int) ≤ 2 ^ 30 * 2 ^ (-53 : Int) := mul_le_mul_of_nonneg_right this (by positivity)
      _ ≤ _ := by norm_num
  have hb : 1 - n * (2 : ℝ) ^ (-53 : Int) ≤ keepR ^ n := by
    have := one_add_mul_le_pow (a := -(2 : ℝ) ^ (-53 : Int)) (by norm_num) n
    rw [← sub_eq_add_neg] at this
    calc _ = 1 + n * -(2 : ℝ) ^ (-53 : Int) := by ring
      _ ≤ _ := this
  set t := (n : ℝ) * 2 ^ (-53 : Int) with ht
  have ht0 : 0 ≤ t := by positivity
  have r0 : 0 < x / q := lt_of_lt_of_le (pow_pos keepR_pos n) a1
  have hd : |x / q - 1| ≤ 2 * t := by
    rw [abs_le]
    constructor
    · have : 1 - t ≤ x / q := le_trans hb a1
      linarith
    · have h1 : x / q * (1 - t) ≤ 1 := le_trans (mul_le_mul_of_nonneg_left hb r0.le) a2
      nlinarith
  have : x - q = (x / q - 1) * q := by rw [sub_mul, div_mul_cancel₀ _ a0, one_mul]
  rw [this, abs_mul]
  calc _ ≤ 2 * t * |q| := mul_le_mul_of_nonneg_right hd (abs_nonneg _)
    _ = _ := by rw [ht, show (2 : ℝ) ^ (-53 : Int) = 1 / 2 ^ 53 by norm_num]; ring

theorem CloseR.abs_bounds {n : Nat} {x q : ℝ} (h : CloseR n x q) (hn : n ≤ 2 ^ 30) : |q| / 2 ≤ |x| ∧ |x| ≤ 2 * |q| := by
  have he := h.err hn
  have h0 : (n : ℝ) / 2 ^ 52 ≤ 1 / 2 := by
    have : (n : ℝ) ≤ 2 ^ 30 := by exact_mod_cast hn
    calc (n : ℝ) / 2 ^ 52 ≤ 2 ^ 30 / 2 ^ 52 := div_le_div_of_nonneg_right this (by positivity)
      _ ≤ _ := by norm_num
  have hq := abs_nonneg q
  have he' : |x - q| ≤ 1 / 2 * |q| := le_trans he (mul_le_mul_of_nonneg_right h0 hq)
  have h1 := abs_sub_abs_le_abs_sub q x
  have h2 := abs_sub_abs_le_abs_sub x q
  rw [abs_sub_comm] at h1
  constructor <;> linarith

theorem CloseR.of_powf {x q : ℝ} (hq : q ≠ 0) (h : |x - q| ≤ 3 * 2 ^ (-54 : Int) * |q|) : CloseR 2 x q := by
  have hd : |x / q - 1| ≤ 3 * 2 ^ (-54 : Int) := by
    have : x / q - 1 = (x - q) / q := by rw [sub_div, div_self hq]
    rw [this, abs_div, div_le_iff₀ (abs_pos.2 hq)]; exact h
  rw [abs_le] at hd
  refine ⟨hq, ?_, ?_⟩
  · refine le_trans ?_ (by linarith [hd.1] : 1 - 3 * (2 : ℝ) ^ (-54 : Int) ≤ x / q)
    norm_num
  · calc x / q * (1 - 2 ^ (-53 : Int)) ^ 2 ≤ (1 + 3 * 2 ^ (-54 : Int)) * (1 - 2 ^ (-53 : Int)) ^ 2 :=
        mul_le_mul_of_nonneg_right (by linarith) (by positivity)
      _ ≤ 1 := by norm_num

/-! ### `f64` operations -/

/-- The double denotes a rational that is `q` up to `n` roundings, and lies well inside the range. -/
def HoldsR (x : Fl) (n : Nat) (q : ℝ) : Prop :=
  ∃ v : ℚ, f64Fmt.val x = some v ∧ CloseR n v q ∧ pow2 (-960) ≤ |v| ∧ |v| ≤ pow2 960

theorem holds_cast {x : Fl} {n : Nat} {q : ℚ} : Holds x n q ↔ HoldsR x n (q : ℝ) := by
  unfold Holds HoldsR
  simp only [close_cast]
theorem moderate_cast {q : ℚ} : moderate q = true ↔ Moderate (q : ℝ) := by
  rw [moderate_iff, Moderate, ← cast_pow2, ← cast_pow2, ← Rat.cast_abs]
  simp only [Rat.cast_le]

theorem HoldsR.mono {x : Fl} {n m : Nat} {q : ℝ} (h : HoldsR x n q) (hnm : n ≤ m) : HoldsR x m q := by
  obtain ⟨v, a, b, c⟩ := h; exact ⟨v, a, b.mono hnm, c⟩

/-- A double close to something moderate is well inside the range. -/
theorem holdsR_of_close {x : Fl} {v : ℚ} {n : Nat} {q : ℝ} (hx : f64Fmt.val x = some v) (hc : CloseR n v q) (hn : n ≤ 2 ^ 30) (hq : Moderate q) :
    HoldsR x n q := by
  have hb := hc.abs_bounds hn
  obtain ⟨q1, q2⟩ := hq
  refine ⟨v, hx, hc, ?_, ?_⟩
  · rw [← Rat.cast_le (K := ℝ), cast_pow2, Rat.cast_abs]
    refine le_trans ?_ (le_trans (div_le_div_of_nonneg_right q1 (by norm_num)) hb.1)
    rw [show (2 : ℝ) ^ (-900 : Int) / 2 = 2 ^ (-901 : Int) by rw [show (-901 : Int) = -900 - 1 by norm_num, zpow_sub_one₀ (by norm_num)]; ring]
    exact zpow_le_zpow_right₀ (by norm_num) (by norm_num)
  · rw [← Rat.cast_le (K := ℝ), cast_pow2, Rat.cast_abs]
    refine le_trans hb.2 (le_trans (mul_le_mul_of_nonneg_left q2 (by norm_num)) ?_)
    rw [show (2 : ℝ) * 2 ^ (900 : Int) = 2 ^ (901 : Int) by rw [show (901 : Int) = 1 + 900 by norm_num, zpow_add₀ (by norm_num)]; norm_num]
    exact zpow_le_zpow_right₀ (by norm_num) (by norm_num)

/-- A correctly rounded result of moderate size. -/
theorem holdsR_round (s : Bool) {a : ℚ} {q : ℝ} {n : Nat} (ha : 0 < a) (hc : CloseR n ((if s then -a else a : ℚ) : ℝ) q) (hn : n + 1 ≤ 2 ^ 30)
    (hq : Moderate q) : HoldsR (.num s (f64Fmt.round a)) (n + 1) q := by
  have hb := hc.abs_bounds (by omega)
  have habs : |((if s then -a else a : ℚ) : ℝ)| = (a : ℝ) := by
    have : (0 : ℝ) < a := by exact_mod_cast ha
    split <;> push_cast <;> simp [abs_of_pos this]
  rw [habs] at hb
  have h1 : pow2 (-940) ≤ a := by
    rw [← Rat.cast_le (K := ℝ), cast_pow2]
    refine le_trans ?_ (le_trans (div_le_div_of_nonneg_right hq.1 (by norm_num)) hb.1)
    rw [show (2 : ℝ) ^ (-900 : Int) / 2 = 2 ^ (-901 : Int) by rw [show (-901 : Int) = -900 - 1 by norm_num, zpow_sub_one₀ (by norm_num)]; ring]
    exact zpow_le_zpow_right₀ (by norm_num) (by norm_num)
  have h2 : a ≤ pow2 940 := by
    rw [← Rat.cast_le (K := ℝ), cast_pow2]
    refine le_trans hb.2 (le_trans (mul_le_mul_of_nonneg_left hq.2 (by norm_num)) ?_)
    rw [show (2 : ℝ) * 2 ^ (900 : Int) = 2 ^ (901 : Int) by rw [show (901 : Int) = 1 + 900 by norm_num, zpow_add₀ (by norm_num)]; norm_num]
    exact zpow_le_zpow_right₀ (by norm_num) (by norm_num)
  obtain ⟨hr, hcl⟩ := round_moderate h1 h2
  refine holdsR_of_close (val_num hr) ?_ hn hq
  have : CloseR 1 ((if s then -f64Fmt.mag (f64Fmt.round a) else f64Fmt.mag (f64Fmt.round a) : ℚ) : ℝ) ((if s then -a else a : ℚ) : ℝ) := by
    rw [close_cast] at hcl
    cases s
    · exact hcl
    · obtain ⟨c0, c1, c2⟩ := hcl
      simp only [if_true]
      push_cast
      refine ⟨neg_ne_zero.2 c0, ?_, ?_⟩ <;> rw [neg_div_neg_eq] <;> assumption
  rw [Nat.add_comm]; exact this.trans hc

theorem holdsR_pos {s : Bool} {a n : Nat} {q : ℝ} (hc : CloseR n ((if s then -f64Fmt.mag a else f64Fmt.mag a : ℚ) : ℝ) q) : 0 < f64Fmt.mag a := by
  rcases (mag_nonneg f64Fmt a).eq_or_lt with e | e
  · exact absurd (by simp [← e]) hc.ne
  · exact e

theorem holdsR_mul {x y : Fl} {n m : Nat} {p q : ℝ} (h : HoldsR x n p) (h' : HoldsR y m q) (hn : n + m + 1 ≤ 2 ^ 30)
    (hq : Moderate (p * q)) : HoldsR (f64Fmt.mul x y) (n + m + 1) (p * q) := by
  obtain ⟨v, hv, hc, _⟩ := h
  obtain ⟨w, hw, hc', _⟩ := h'
  obtain ⟨s, a, rfl, ha, rfl⟩ := val_inv hv
  obtain ⟨t, b, rfl, hb, rfl⟩ := val_inv hw
  rw [mul_num _ ha hb]
  refine holdsR_round _ (mul_pos (holdsR_pos hc) (holdsR_pos hc')) ?_ hn hq
  convert hc.mul hc' using 1
  cases s <;> cases t <;> simp

theorem holdsR_div {x y : Fl} {n m : Nat} {p q : ℝ} (h : HoldsR x n p) (h' : HoldsR y m q) (hn : n + m + 1 ≤ 2 ^ 30)
    (hq : Moderate (p / q)) : HoldsR (f64Fmt.div x y) (n + m + 1) (p / q) := by
  obtain ⟨v, hv, hc, _⟩ := h
  obtain ⟨w, hw, hc', _⟩ := h'
  obtain ⟨s, a, rfl, ha, rfl⟩ := val_inv hv
  obtain ⟨t, b, rfl, hb, rfl⟩ := val_inv hw
  have h1 := holdsR_pos hc'
  have hb0 : b ≠ 0 := by rintro rfl; rw [mag_zero] at h1; exact lt_irrefl _ h1
  rw [div_num _ ha hb hb0]
  refine holdsR_round _ (div_pos (holdsR_pos hc) h1) ?_ hn hq
  convert hc.div hc' using 1
  cases s <;> cases t <;> simp [neg_div, div_neg]

/-! ### The fraction handed to `powf` -/

/-- `n / 2^k` is a double. -/
theorem mag_dyadic (n : Nat) (hn : 0 < n) (hn' : n < 2 ^ 31) (k : Nat) (hk : k ≤ 62) : ∃ b, f64Fmt.mag b = (n : ℚ) / 2 ^ k := by
  obtain ⟨hm, -⟩ := mag_round_nat (m := n) (by omega)
  obtain ⟨E, m, he, hm2, hE⟩ := bits_decompose f64Fmt (by decide) (f64Fmt.round (n : ℚ))
  have hmag := mag_compose f64Fmt (by decide) hm2.le hE
  rw [← he, hm] at hmag
  have hEk : k ≤ E := by
    by_contra hlt
    have h1 : (m : ℚ) * pow2 (f64Fmt.emin + E) < 1 := by
      have hm3 : (m : ℚ) ≤ pow2 53 := by
        rw [show (53 : Int) = ((53 : Nat) : Int) from rfl, pow2_nat]; exact_mod_cast hm2.le
      calc (m : ℚ) * pow2 (f64Fmt.emin + E) ≤ pow2 53 * pow2 (f64Fmt.emin + E) := mul_le_mul_of_nonneg_right hm3 (pow2_pos _).le
        _ = pow2 (53 + (f64Fmt.emin + E)) := (pow2_add _ _).symm
        _ < pow2 0 := pow2_lt.2 (by simp only [f64Fmt]; omega)
        _ = 1 := pow2_zero
    rw [← hmag] at h1
    have : (1 : ℚ) ≤ n := by exact_mod_cast hn
    linarith
  have hE0 : 2 ^ (f64Fmt.p - 1) ≤ m := by
    rcases hE with h | h
    · exfalso
      rw [h] at hmag
      have hm3 : (m : ℚ) ≤ pow2 53 := by
        rw [show (53 : Int) = ((53 : Nat) : Int) from rfl, pow2_nat]; exact_mod_cast hm2.le
      have h1 : (m : ℚ) * pow2 (f64Fmt.emin + (0 : Nat)) < 1 := by
        calc (m : ℚ) * pow2 (f64Fmt.emin + (0 : Nat)) ≤ pow2 53 * pow2 (f64Fmt.emin + (0 : Nat)) := mul_le_mul_of_nonneg_right hm3 (pow2_pos _).le
          _ = pow2 (53 + (f64Fmt.emin + (0 : Nat))) := (pow2_add _ _).symm
          _ < pow2 0 := pow2_lt.2 (by simp only [f64Fmt]; omega)
          _ = 1 := pow2_zero
      rw [← hmag] at h1
      have : (1 : ℚ) ≤ n := by exact_mod_cast hn
      linarith
    · exact h
  refine ⟨(E - k) * 2 ^ (f64Fmt.p - 1) + m, ?_⟩
  rw [mag_compose f64Fmt (by decide) hm2.le (.inr hE0), hmag]
  have : pow2 (f64Fmt.emin + E) = pow2 (f64Fmt.emin + (E - k : Nat)) * 2 ^ k := by
    rw [show (2 : ℚ) ^ k = pow2 k by rw [pow2_eq, zpow_natCast], ← pow2_add]
    congr 1; omega
  rw [this]; field_simp

/-- The exponent as the code passes it on: a double within half a unit in the last place of the fraction, exact if the denominator is a power
of two, and no larger than the next integer. -/
theorem exponent_f64 {r : Ratio} (h1 : r.num.natAbs < 2 ^ 31) (h2 : 0 < r.denom) (h3 : r.denom < 2 ^ 31) :
    ∃ w : ℚ, f64Fmt.val (f64Fmt.div (f64Fmt.ofInt r.num) (f64Fmt.ofInt r.denom)) = some w ∧ |(w : ℝ) - r.real| ≤ 2 ^ (-53 : Int) * |r.real| ∧
      |(w : ℝ)| ≤ ⌈|r.real|⌉₊ ∧ ((∃ k : Nat, r.denom = 2 ^ k) → (w : ℝ) = r.real) ∧
      (r.num = 0 → f64Fmt.div (f64Fmt.ofInt r.num) (f64Fmt.ofInt r.denom) = .num false 0) := by
  obtain ⟨hn, hn'⟩ := mag_round_nat (m := r.num.natAbs) (by omega)
  obtain ⟨hd, hd'⟩ := mag_round_nat (m := r.denom.natAbs) (by omega)
  have hd0 : f64Fmt.round (r.denom.natAbs : ℚ) ≠ 0 := by
    intro e; rw [e, mag_zero] at hd
    have : r.denom.natAbs = 0 := by exact_mod_cast hd.symm
    omega
  have hdiv : f64Fmt.div (f64Fmt.ofInt r.num) (f64Fmt.ofInt r.denom) =
      .num (decide (r.num < 0)) (f64Fmt.round ((r.num.natAbs : ℚ) / r.denom.natAbs)) := by
    unfold Fmt.ofInt
    rw [div_num _ hn' hd' hd0, hn, hd, decide_eq_false (show ¬ r.denom < 0 by omega)]
    simp
  have hdr : ((r.denom.natAbs : ℕ) : ℝ) = (r.denom : ℝ) := by
    have : ((r.denom.natAbs : Int) : ℝ) = (r.denom : ℝ) := by congr 1; omega
    rw [← this, Int.cast_natCast]
  have hdpos : (0 : ℝ) < r.denom := by exact_mod_cast h2
  set a : ℚ := (r.num.natAbs : ℚ) / r.denom.natAbs with ha
  have har : (a : ℝ) = |r.real| := by
    rw [ha, Ratio.real, abs_div, abs_of_pos hdpos]
    push_cast
    rw [hdr]
    congr 1
    rw [← Int.cast_abs, Int.abs_eq_natAbs]; simp
  have hsign : r.real = if r.num < 0 then -(a : ℝ) else a := by
    rw [har]
    split
    · rename_i h
      have : r.real < 0 := div_neg_of_neg_of_pos (by exact_mod_cast h) hdpos
      rw [abs_of_neg this]; ring
    · rename_i h
      have : 0 ≤ r.real := div_nonneg (by exact_mod_cast not_lt.1 h) hdpos.le
      rw [abs_of_nonneg this]
  rw [hdiv]
  by_cases h0 : r.num = 0
  · have hz : a = 0 := by rw [ha, h0]; simp
    rw [hz, round_zero, h0]
    have hr0 : r.real = 0 := by rw [Ratio.real, h0]; simp
    refine ⟨0, by rw [val_num (by decide)]; simp [mag_zero], ?_, ?_, ?_, fun _ => rfl⟩ <;> simp [hr0]
  have hnum : 0 < r.num.natAbs := Int.natAbs_pos.2 h0
  have hapos : 0 < a := by rw [ha]; apply div_pos <;> [exact_mod_cast hnum; exact_mod_cast Int.natAbs_pos.2 (by omega)]
  have hale : a ≤ 2 ^ 31 := by
    rw [ha, div_le_iff₀ (by exact_mod_cast Int.natAbs_pos.2 (by omega))]
    have e1 : (r.num.natAbs : ℚ) ≤ 2 ^ 31 := by exact_mod_cast h1.le
    have e2 : (1 : ℚ) ≤ r.denom.natAbs := by exact_mod_cast Int.natAbs_pos.2 (by omega)
    nlinarith
  have hage : 1 / 2 ^ 31 ≤ a := by
    rw [ha, le_div_iff₀ (by exact_mod_cast Int.natAbs_pos.2 (by omega))]
    have e1 : (1 : ℚ) ≤ r.num.natAbs := by exact_mod_cast hnum
    have e2 : (r.denom.natAbs : ℚ) ≤ 2 ^ 31 := by exact_mod_cast (show r.denom.natAbs ≤ 2 ^ 31 by omega)
    calc (1 / 2 ^ 31 : ℚ) * r.denom.natAbs ≤ 1 / 2 ^ 31 * 2 ^ 31 := mul_le_mul_of_nonneg_left e2 (by norm_num)
      _ = 1 := by norm_num
      _ ≤ _ := e1
  have hlo : pow2 (-940) ≤ a := by
    refine le_trans ?_ hage
    rw [show (1 / 2 ^ 31 : ℚ) = pow2 (-31) by rw [pow2_eq]; norm_num]
    exact pow2_le.2 (by norm_num)
  have hhi : a ≤ pow2 940 := by
    refine le_trans hale ?_
    rw [show (2 ^ 31 : ℚ) = pow2 31 by rw [pow2_eq]; norm_num]
    exact pow2_le.2 (by norm_num)
  obtain ⟨hr, -⟩ := round_moderate hlo hhi
  have herr := round_rel_err f64Fmt (by decide) (q := a) (le_trans (pow2_le.2 (by rw [f64_p]; simp only [f64Fmt]; norm_num)) hlo) hr
  have hnear := round_nearest f64Fmt (by decide) hapos hr
  rw [f64_p] at herr
  have hmn := mag_nonneg f64Fmt (f64Fmt.round a)
  refine ⟨_, val_num hr, ?_, ?_, ?_, fun h => absurd h h0⟩
  · have : |((f64Fmt.mag (f64Fmt.round a) : ℚ) : ℝ) - a| ≤ 2 ^ (-53 : Int) * a := by
      rw [← cast_pow2]; exact_mod_cast herr
    rw [← har, hsign]
    by_cases hneg : r.num < 0
    · simp only [hneg, decide_true, if_true]
      push_cast
      rw [← abs_neg]; convert this using 2; ring
    · simp only [hneg, decide_false, if_false, Bool.false_eq_true]; exact this
  · have hle : f64Fmt.mag (f64Fmt.round a) ≤ (⌈|r.real|⌉₊ : ℚ) := by
      have hc : ⌈|r.real|⌉₊ ≤ 2 ^ 53 := by
        refine le_trans (Nat.ceil_le.2 ?_ : _ ≤ 2 ^ 31) (by norm_num)
        rw [← har]; exact_mod_cast hale
      have hz : a ≤ (⌈|r.real|⌉₊ : ℚ) := by
        rw [← Rat.cast_le (K := ℝ), har, Rat.cast_natCast]; exact Nat.le_ceil _
      have := hnear (f64Fmt.round (⌈|r.real|⌉₊ : ℚ))
      rw [(mag_round_nat hc).1, abs_of_nonneg (sub_nonneg.2 hz)] at this
      have := le_trans (le_abs_self _) this
      linarith
    have : |((if decide (r.num < 0) = true then -f64Fmt.mag (f64Fmt.round a) else f64Fmt.mag (f64Fmt.round a) : ℚ) : ℝ)| = ((f64Fmt.mag (f64Fmt.round a) : ℚ) : ℝ) := by
      have h0 : (0 : ℝ) ≤ ((f64Fmt.mag (f64Fmt.round a) : ℚ) : ℝ) := by exact_mod_cast hmn
      split <;> push_cast <;> simp [abs_of_nonneg h0]
    rw [this]; exact_mod_cast hle
  · rintro ⟨k, hk⟩
    have hk62 : k ≤ 62 := by
      clear hlo hhi
      by_contra hlt
      have : (2 : Int) ^ 63 ≤ 2 ^ k := pow_le_pow_right₀ (by norm_num) (Nat.succ_le_of_lt (not_le.1 hlt))
      rw [← hk] at this
      exact absurd (lt_of_le_of_lt this h3) (by norm_num)
    obtain ⟨b, hb⟩ := mag_dyadic r.num.natAbs hnum h1 k hk62
    have hab : a = (r.num.natAbs : ℚ) / 2 ^ k := by
      have : r.denom.natAbs = 2 ^ k := by rw [hk]; simp [Int.natAbs_pow]
      rw [ha, this]; push_cast; rfl
    have := hnear b
    rw [hb, ← hab, sub_self, abs_zero] at this
    have heq : f64Fmt.mag (f64Fmt.round a) = a := by
      have := abs_nonpos_iff.1 this; linarith
    rw [heq, hsign]
    by_cases hneg : r.num < 0
    · simp only [hneg, decide_true, if_true]; push_cast; rfl
    · simp only [hneg, decide_false, if_false, Bool.false_eq_true]

/-! ### Powers -/

theorem holdsR_powf {powf : Fl → Fl → Fl} (hp : PowfAccurate powf) {x : Fl} {n : Nat} {q : ℝ} {r : Ratio} (hx : HoldsR x n q)
    (hs : 0 < q ∨ r.denom = 1) (h1 : r.num.natAbs < 2 ^ 31) (h2 : 0 < r.denom) (h3 : r.denom < 2 ^ 31) (hm : Moderate (q ^ r.real))
    (hN : ⌈|r.real|⌉₊ * n + exponentRoundings q r + 2 ≤ 2 ^ 30) :
    HoldsR (powf x (f64Fmt.div (f64Fmt.ofInt r.num) (f64Fmt.ofInt r.denom))) (⌈|r.real|⌉₊ * n + exponentRoundings q r + 2) (q ^ r.real) := by
  obtain ⟨v, hv, hc, -⟩ := hx
  obtain ⟨w, hw, hw1, hw2, hw3, -⟩ := exponent_f64 h1 h2 h3
  have hq0 : q ≠ 0 := hc.1
  have hv0 : (v : ℝ) ≠ 0 := hc.ne
  have hrho := hc.pos
  -- the power of what is stored against the exact power
  have hclose : CloseR (⌈|r.real|⌉₊ * n + exponentRoundings q r) ((v : ℝ) ^ (w : ℝ)) (q ^ r.real) := by
    have hl := (closeR_iff.1 hc).2
    have hlog : |(w : ℝ) * log (v / q)| ≤ (⌈|r.real|⌉₊ * n : ℕ) * cost := by
      rw [abs_mul]; push_cast
      calc _ ≤ (⌈|r.real|⌉₊ : ℝ) * (n * cost) := mul_le_mul hw2 hl (abs_nonneg _) (Nat.cast_nonneg _)
        _ = _ := by ring
    by_cases hd : r.denom = 1
    · have hwr : (w : ℝ) = r.real := hw3 ⟨0, by simpa using hd⟩
      have hri : r.real = (r.num : ℝ) := by rw [Ratio.real, hd]; simp
      refine CloseR.mono (n := ⌈|r.real|⌉₊ * n) (closeR_iff.2 ?_) (Nat.le_add_right _ _)
      rw [hwr] at hlog ⊢
      rw [hri, rpow_intCast, rpow_intCast, ← div_zpow, log_zpow]
      rw [hri] at hlog
      exact ⟨zpow_pos hrho _, hlog⟩
    · have hq : 0 < q := hs.resolve_right hd
      have hvp : 0 < (v : ℝ) := by have := mul_pos hrho hq; rwa [div_mul_cancel₀ _ hq0] at this
      have e : (v : ℝ) ^ (w : ℝ) / q ^ r.real = (v / q) ^ (w : ℝ) * q ^ ((w : ℝ) - r.real) := by
        rw [div_rpow hvp.le hq.le, rpow_sub hq]; field_simp
      have hp1 : 0 < ((v : ℝ) / q) ^ (w : ℝ) := rpow_pos_of_pos hrho _
      have hp2 : 0 < q ^ ((w : ℝ) - r.real) := rpow_pos_of_pos hq _
      rw [closeR_iff, e, log_mul hp1.ne' hp2.ne', log_rpow hrho, log_rpow hq]
      refine ⟨mul_pos hp1 hp2, le_trans (abs_add_le _ _) ?_⟩
      rw [Nat.cast_add, add_mul]
      refine add_le_add hlog ?_
      unfold exponentRoundings
      split
      · rename_i hk; rw [hw3 hk]; simp
      · rw [abs_mul]
        calc _ ≤ 2 ^ (-53 : Int) * |r.real| * |log q| := mul_le_mul_of_nonneg_right hw1 (abs_nonneg _)
          _ = 2 ^ (-53 : Int) * |r.real * log q| := by rw [abs_mul]; ring
          _ ≤ cost * |r.real * log q| := mul_le_mul_of_nonneg_right cost_ge (abs_nonneg _)
          _ ≤ cost * ⌈|r.real * log q|⌉₊ := mul_le_mul_of_nonneg_left (Nat.le_ceil _) cost_pos.le
          _ = _ := mul_comm _ _
  have hb := hclose.abs_bounds (by omega)
  have hsv : 0 < v ∨ v ≠ 0 ∧ ∃ k : Int, w = k := by
    by_cases hd : r.denom = 1
    · right
      refine ⟨by exact_mod_cast hv0, r.num, ?_⟩
      have hwr : (w : ℝ) = r.real := hw3 ⟨0, by simpa using hd⟩
      rw [Ratio.real, hd] at hwr
      have : (w : ℝ) = ((r.num : ℚ) : ℝ) := by rw [hwr]; simp
      exact_mod_cast this
    · left
      have hq : 0 < q := hs.resolve_right hd
      have := mul_pos hrho hq; rw [div_mul_cancel₀ _ hq0] at this
      exact_mod_cast this
  obtain ⟨z, hz, hze⟩ := hp.accurate x _ v w hv hw hsv
    (by
      refine le_trans ?_ (le_trans (div_le_div_of_nonneg_right hm.1 (by norm_num)) hb.1)
      rw [show (2 : ℝ) ^ (-900 : Int) / 2 = 2 ^ (-901 : Int) by rw [show (-901 : Int) = -900 - 1 by norm_num, zpow_sub_one₀ (by norm_num)]; ring]
      exact zpow_le_zpow_right₀ (by norm_num) (by norm_num))
    (by
      refine le_trans hb.2 (le_trans (mul_le_mul_of_nonneg_left hm.2 (by norm_num)) ?_)
      rw [show (2 : ℝ) * 2 ^ (900 : Int) = 2 ^ (901 : Int) by rw [show (901 : Int) = 1 + 900 by norm_num, zpow_add₀ (by norm_num)]; norm_num]
      exact zpow_le_zpow_right₀ (by norm_num) (by norm_num))
  refine holdsR_of_close hz ?_ hN hm
  rw [Nat.add_comm]
  exact (CloseR.of_powf hclose.ne hze).trans hclose

/-! ### Stored factors -/

theorem holdsR_store {lib : FloatLib} (hl : PowiTwo lib (-1023)) {x : Fl} {n : Nat} {q : ℝ} (h : HoldsR x n q) :
    HoldsR ((Magnitude.fromF64 x).intoF64 lib) n q := by
  obtain ⟨v, hv, hc, h1, h2⟩ := h
  have h0 : v ≠ 0 := by have := hc.ne; exact_mod_cast this
  obtain ⟨v', hv', hc', -⟩ := holds_store hl (n := 0) ⟨v, hv, .refl h0, h1, h2⟩
  have : v' = v := by
    obtain ⟨-, a1, a2⟩ := hc'
    simp only [pow_zero, mul_one] at a1 a2
    have := le_antisymm a2 a1
    rwa [div_eq_one_iff_eq h0] at this
  subst this
  exact ⟨_, hv', hc, h1, h2⟩

/-- The relation between a stored conversion factor and the books kept about it. -/
def TracksR (lib : FloatLib) (m : Magnitude) (e : RealEstimate) : Prop :=
  e.inRange → e.roundings ≤ 2 ^ 30 ∧ HoldsR (m.intoF64 lib) e.roundings e.value

section
variable {lib : FloatLib} (hl : LibStores lib 1)
include hl

theorem tracksR_one : TracksR lib (magOpsRatio lib).one realEstimateOps.one := fun _ =>
  ⟨Nat.zero_le _, holdsR_store hl.two (by have := holds_cast.1 holds_one; rw [Rat.cast_one] at this; exact this)⟩
theorem tracksR_mul {a b : Magnitude} {x y : RealEstimate} (h : TracksR lib a x) (h' : TracksR lib b y) :
    TracksR lib ((magOpsRatio lib).mul a b) (realEstimateOps.mul x y) := by
  rintro ⟨⟨h1, h2⟩, hq, hn⟩
  exact ⟨hn, holdsR_store hl.two (holdsR_mul (h h1).2 (h' h2).2 hn hq)⟩
theorem tracksR_div {a b : Magnitude} {x y : RealEstimate} (h : TracksR lib a x) (h' : TracksR lib b y) :
    TracksR lib ((magOpsRatio lib).div a b) (realEstimateOps.div x y) := by
  rintro ⟨⟨h1, h2⟩, hq, hn⟩
  exact ⟨hn, holdsR_store hl.two (holdsR_div (h h1).2 (h' h2).2 hn hq)⟩
theorem tracksR_pow (hp : PowfAccurate lib.powf) {a : Magnitude} {x : RealEstimate} (h : TracksR lib a x) (r : Ratio) :
    TracksR lib ((magOpsRatio lib).pow a r) (realEstimateOps.pow x r) := by
  rintro ⟨⟨h0, hs, h1, h2, h3⟩, hq, hn⟩
  exact ⟨hn, holdsR_store hl.two (holdsR_powf hp (h h0).2 hs h1 h2 h3 hq hn)⟩
theorem tracksR_number (n : Number) : TracksR lib n.magnitude n.realEstimate := by
  rintro ⟨-, hq, hn⟩
  have : n.estimate.inRange = true := by
    simp only [Number.estimate, Estimate.result, Bool.true_and, Bool.and_eq_true]
    exact ⟨moderate_cast.2 hq, by decide⟩
  exact ⟨hn, holds_cast.1 ((tracks_number hl n this).2 (by simp [Number.estimate, Estimate.result]))⟩
theorem tracksR_prefix (n : Prefix) : TracksR lib n.factor n.realEstimate := by
  rintro ⟨-, hq, hn⟩
  have : n.estimate.inRange = true := by
    simp only [Prefix.estimate, Estimate.result, Bool.true_and, Bool.and_eq_true]
    exact ⟨moderate_cast.2 hq, by decide⟩
  exact ⟨hn, holds_cast.1 ((tracks_prefix hl n this).2 (by simp [Prefix.estimate, Estimate.result]))⟩

/-! ### Running both at once -/

/-- Pairs of a stored factor and correct books about it. -/
def TrackedR (lib : FloatLib) := { p : Magnitude × RealEstimate // TracksR lib p.1 p.2 }

@[reducible] noncomputable def trackedOpsR (hp : PowfAccurate lib.powf) : MagOps Ratio (TrackedR lib) where
  one := ⟨(_, _), tracksR_one hl⟩
  mul a b := ⟨(_, _), tracksR_mul hl a.2 b.2⟩
  div a b := ⟨(_, _), tracksR_div hl a.2 b.2⟩
  pow a e := ⟨(_, _), tracksR_pow hl hp a.2 e⟩
  isOne a := (magOpsRatio lib).isOne a.1.1

theorem homR_fst (hp : PowfAccurate lib.powf) : @MagHom Ratio (TrackedR lib) Magnitude (trackedOpsR hl hp) (magOpsRatio lib) (fun t => t.1.1) :=
  @MagHom.mk _ _ _ (trackedOpsR hl hp) (magOpsRatio lib) _ rfl (fun _ _ => rfl) (fun _ _ => rfl) (fun _ _ => rfl)
theorem homR_snd (hp : PowfAccurate lib.powf) : @MagHom Ratio (TrackedR lib) RealEstimate (trackedOpsR hl hp) realEstimateOps (fun t => t.1.2) :=
  @MagHom.mk _ _ _ (trackedOpsR hl hp) realEstimateOps _ rfl (fun _ _ => rfl) (fun _ _ => rfl) (fun _ _ => rfl)
omit hl in
theorem homR_value : @MagHom Ratio RealEstimate ℝ realEstimateOps realOps RealEstimate.value :=
  @MagHom.mk _ _ _ realEstimateOps realOps _ rfl (fun _ _ => rfl) (fun _ _ => rfl) (fun _ _ => rfl)

/-! ### Integral powers, by the books of the integer build -/

theorem tracks_pow_ratio (hp : PowfAccurate lib.powf) {a : Magnitude} {x : Estimate} (h : Tracks lib 1 a x) (n : Int) :
    Tracks lib 1 ((magOpsRatio lib).pow a ⟨n, 1⟩) (estimateOps.pow x n) := by
  intro hr
  obtain ⟨hok, hq, hn⟩ := result_inRange hr
  rw [Bool.and_eq_true, decide_eq_true_eq] at hok
  refine ⟨hn, fun _ => ?_⟩
  rw [Nat.one_mul]
  refine holds_store hl.two ?_
  by_cases h0 : n = 0
  · subst h0
    obtain ⟨w, -, -, -, -, hz⟩ := exponent_f64 (r := ⟨0, 1⟩) (by decide) (by decide) (by decide)
    show Holds (lib.powf (a.intoF64 lib) (f64Fmt.div (f64Fmt.ofInt 0) (f64Fmt.ofInt 1))) _ _
    rw [hz rfl, hp.zero]
    have e : Holds (f64Fmt.ofInt 1) (Int.natAbs 0 * (x.roundings + 1) + 1) (x.value ^ (0 : Int)) := by
      rw [zpow_zero]; exact holds_one.mono (Nat.zero_le _)
    exact e
  · have hreal : (⟨n, 1⟩ : Ratio).real = (n : ℝ) := by simp [Ratio.real]
    have hceil : ⌈|(n : ℝ)|⌉₊ = n.natAbs := by
      rw [← Int.cast_abs, Int.abs_eq_natAbs, Int.cast_natCast, Nat.ceil_natCast]
    have hex : exponentRoundings x.value ⟨n, 1⟩ = 0 := by
      unfold exponentRoundings; exact if_pos ⟨0, by simp⟩
    have hle : n.natAbs * x.roundings + 0 + 2 ≤ n.natAbs * (x.roundings + 1) + 1 := by
      have : 1 ≤ n.natAbs := Int.natAbs_pos.2 h0
      rw [Nat.mul_add]; omega
    have hcast : ((x.value : ℝ)) ^ (n : ℝ) = ((x.value ^ n : ℚ) : ℝ) := by rw [rpow_intCast]; push_cast; rfl
    have hle2 : x.roundings ≤ n.natAbs * x.roundings := Nat.le_mul_of_pos_left _ (Int.natAbs_pos.2 h0)
    have hn' : n.natAbs * (x.roundings + 1) + 1 ≤ 2 ^ 30 := hn
    have hx := (h hok.1).2 (by rw [Nat.one_mul]; omega)
    rw [Nat.one_mul] at hx
    have := holdsR_powf hp (r := ⟨n, 1⟩) (holds_cast.1 hx) (.inr rfl) hok.2 Int.one_pos (by norm_num)
      (by rw [hreal, hcast]; exact moderate_cast.1 hq) (by rw [hreal, hceil, hex]; omega)
    rw [hreal, hceil, hex, hcast] at this
    exact (holds_cast.2 this).mono hle
end

/-! ### Such a `powf` exists -/

theorem exists_f64_near {R : ℝ} (h1 : (2 : ℝ) ^ (-930 : Int) ≤ |R|) (h2 : |R| ≤ 2 ^ (930 : Int)) :
    ∃ (f : Fl) (z : ℚ), f64Fmt.val f = some z ∧ |(z : ℝ) - R| ≤ 3 * 2 ^ (-54 : Int) * |R| := by
  have hR : 0 < |R| := lt_of_lt_of_le (by positivity) h1
  obtain ⟨a, ha1, ha2⟩ := exists_rat_btwn (show |R| < |R| * (1 + 2 ^ (-60 : Int)) by
    have : (0 : ℝ) < |R| * 2 ^ (-60 : Int) := by positivity
    linarith)
  have hlo : pow2 (-940) ≤ a := by
    rw [← Rat.cast_le (K := ℝ), cast_pow2]
    exact le_trans (zpow_le_zpow_right₀ (by norm_num) (by norm_num)) (le_trans h1 ha1.le)
  have hhi : a ≤ pow2 940 := by
    rw [← Rat.cast_le (K := ℝ), cast_pow2]
    refine le_trans ha2.le ?_
    calc |R| * (1 + 2 ^ (-60 : Int)) ≤ 2 ^ (930 : Int) * 2 := mul_le_mul h2 (by norm_num) (by positivity) (by positivity)
      _ = 2 ^ (931 : Int) := by rw [show (931 : Int) = 930 + 1 by norm_num, zpow_add_one₀ (by norm_num)]
      _ ≤ _ := zpow_le_zpow_right₀ (by norm_num) (by norm_num)
  obtain ⟨hr, -⟩ := round_moderate hlo hhi
  have herr := round_rel_err f64Fmt (by decide) (q := a) (le_trans (pow2_le.2 (by rw [f64_p]; simp only [f64Fmt]; norm_num)) hlo) hr
  have herr' : |((f64Fmt.mag (f64Fmt.round a) : ℚ) : ℝ) - a| ≤ 2 ^ (-53 : Int) * a := by
    rw [← cast_pow2]; exact_mod_cast herr
  have key : |((f64Fmt.mag (f64Fmt.round a) : ℚ) : ℝ) - (|R| : ℝ)| ≤ 3 * 2 ^ (-54 : Int) * |R| := by
    have e : ((f64Fmt.mag (f64Fmt.round a) : ℚ) : ℝ) - |R| = (((f64Fmt.mag (f64Fmt.round a) : ℚ) : ℝ) - a) + (a - |R|) := by ring
    rw [e]
    refine le_trans (abs_add_le _ _) ?_
    rw [abs_of_pos (show (0 : ℝ) < a - |R| by linarith)]
    have : (2 : ℝ) ^ (-53 : Int) * a ≤ 2 ^ (-53 : Int) * (|R| * (1 + 2 ^ (-60 : Int))) := mul_le_mul_of_nonneg_left ha2.le (by positivity)
    have e1 : (2 : ℝ) ^ (-53 : Int) = 1 / 2 ^ 53 := by norm_num
    have e2 : (2 : ℝ) ^ (-54 : Int) = 1 / 2 ^ 54 := by norm_num
    have e3 : (2 : ℝ) ^ (-60 : Int) = 1 / 2 ^ 60 := by norm_num
    rw [e1] at herr' this
    rw [e3] at ha2 this
    rw [e2]
    linarith
  refine ⟨.num (decide (R < 0)) (f64Fmt.round a), _, val_num hr, ?_⟩
  by_cases hneg : R < 0
  · simp only [hneg, decide_true, if_true]
    rw [abs_of_neg hneg] at key ⊢
    push_cast
    rw [← abs_neg]; convert key using 2; ring
  · simp only [hneg, decide_false, Bool.false_eq_true, if_false]
    rw [abs_of_nonneg (not_lt.1 hneg)] at key ⊢
    exact key

/-- The assumption on `powf` can be met. -/
theorem exists_powfAccurate : ∃ powf, PowfAccurate powf := by
  classical
  refine ⟨fun x y => if ∃ s, y = .num s 0 then f64Fmt.ofInt 1 else
    if h : ∃ f : Fl, ∃ v w z : ℚ, f64Fmt.val x = some v ∧ f64Fmt.val y = some w ∧ f64Fmt.val f = some z ∧
      |(z : ℝ) - (v : ℝ) ^ (w : ℝ)| ≤ 3 * 2 ^ (-54 : Int) * |(v : ℝ) ^ (w : ℝ)| then h.choose else .nan, ?_, ?_⟩
  · intro x y v w hv hw _ h1 h2
    by_cases h0 : ∃ s, y = .num s 0
    · rw [if_pos h0]
      obtain ⟨s, rfl⟩ := h0
      have : w = 0 := by
        rw [val_num (by decide), mag_zero] at hw
        rw [← Option.some.inj hw]; cases s <;> simp
      subst this
      refine ⟨1, by decide +kernel, ?_⟩
      simp
    · simp only [if_neg h0]
      obtain ⟨f, z, hz, he⟩ := exists_f64_near h1 h2
      have h : ∃ f : Fl, ∃ v w z : ℚ, f64Fmt.val x = some v ∧ f64Fmt.val y = some w ∧ f64Fmt.val f = some z ∧
          |(z : ℝ) - (v : ℝ) ^ (w : ℝ)| ≤ 3 * 2 ^ (-54 : Int) * |(v : ℝ) ^ (w : ℝ)| := ⟨f, v, w, z, hv, hw, hz, he⟩
      rw [dif_pos h]
      obtain ⟨v', w', z', a, b, c, d⟩ := h.choose_spec
      rw [hv] at a; rw [hw] at b
      cases a; cases b
      exact ⟨z', c, d⟩
  · intro x s
    rw [if_pos ⟨s, rfl⟩]

end Diman
