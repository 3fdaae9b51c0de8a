import Verif.Spec.Estimate
import Verif.Proofs.Natural
import Verif.Props.C03
import Mathlib.Tactic.FieldSimp
import Mathlib.Tactic.Positivity
import Mathlib.Algebra.Order.Ring.Pow
/-! How rounding errors accumulate. -/
namespace Diman

/-- One rounding keeps at least this factor. -/
abbrev keep : ℚ := 1 - pow2 (-53)

theorem pow2_m53 : pow2 (-53) = 1 / 2 ^ 53 := by rw [pow2_eq]; norm_num
theorem keep_pos : 0 < keep := by rw [keep, pow2_m53]; norm_num
theorem keep_lt : keep < 1 := by rw [keep, pow2_m53]; norm_num

theorem Close.refl {q : ℚ} (h : q ≠ 0) : Close 0 q q := ⟨h, by simp [h], by simp [h]⟩
theorem Close.mono {n m : Nat} {x q : ℚ} (h : Close n x q) (hnm : n ≤ m) : Close m x q := by
  obtain ⟨h0, h1, h2⟩ := h
  have hp : keep ^ m ≤ keep ^ n := pow_le_pow_of_le_one keep_pos.le keep_lt.le hnm
  have hr : 0 < x / q := lt_of_lt_of_le (pow_pos keep_pos n) h1
  exact ⟨h0, le_trans hp h1, le_trans (mul_le_mul_of_nonneg_left hp hr.le) h2⟩
theorem Close.pos {n : Nat} {x q : ℚ} (h : Close n x q) : 0 < x / q := lt_of_lt_of_le (pow_pos keep_pos n) h.2.1
theorem Close.ne {n : Nat} {x q : ℚ} (h : Close n x q) : x ≠ 0 := by
  have := h.pos; intro e; simp [e] at this
theorem Close.mul {n m : Nat} {x q y p : ℚ} (h : Close n x q) (h' : Close m y p) : Close (n + m) (x * y) (q * p) := by
  have r1 := h.pos; have r2 := h'.pos
  obtain ⟨a0, a1, a2⟩ := h
  obtain ⟨b0, b1, b2⟩ := h'
  have e : x * y / (q * p) = x / q * (y / p) := by rw [mul_div_mul_comm]
  refine ⟨mul_ne_zero a0 b0, ?_, ?_⟩
  · rw [e, pow_add]; exact mul_le_mul a1 b1 (pow_pos keep_pos m).le r1.le
  · rw [e, pow_add]
    calc _ = (x / q * keep ^ n) * (y / p * keep ^ m) := by ring
      _ ≤ 1 * 1 := mul_le_mul a2 b2 (mul_nonneg r2.le (pow_pos keep_pos m).le) zero_le_one
      _ = 1 := one_mul 1
theorem Close.inv {n : Nat} {x q : ℚ} (h : Close n x q) : Close n x⁻¹ q⁻¹ := by
  have r1 := h.pos
  have hx := h.ne
  obtain ⟨a0, a1, a2⟩ := h
  have hk := pow_pos keep_pos n
  have e : x⁻¹ / q⁻¹ = (x / q)⁻¹ := by rw [inv_div_inv, inv_div]
  refine ⟨inv_ne_zero a0, ?_, ?_⟩
  · rw [e, le_inv_comm₀ hk r1]
    rw [← le_div_iff₀ hk] at a2; simpa using a2
  · rw [e, inv_mul_le_iff₀ r1, mul_one]; exact a1
theorem Close.div {n m : Nat} {x q y p : ℚ} (h : Close n x q) (h' : Close m y p) : Close (n + m) (x / y) (q / p) := by
  rw [div_eq_mul_inv, div_eq_mul_inv]; exact h.mul h'.inv
theorem Close.trans {n m : Nat} {x y q : ℚ} (h : Close n x y) (h' : Close m y q) : Close (n + m) x q := by
  have := h.mul h'
  have e := mul_comm y q
  have hy := h.1
  obtain ⟨_, b1, b2⟩ := this
  have e : x * y / (y * q) = x / q := by rw [mul_comm y q, mul_div_mul_right _ _ hy]
  rw [e] at b1 b2
  exact ⟨h'.1, b1, b2⟩
theorem Close.of_err {x q : ℚ} (hq : q ≠ 0) (h : |x - q| ≤ pow2 (-53) * |q|) : Close 1 x q := by
  have hd : |x / q - 1| ≤ pow2 (-53) := by
    have : x / q - 1 = (x - q) / q := by rw [sub_div, div_self hq]
    rw [this, abs_div, div_le_iff₀ (abs_pos.2 hq)]; exact h
  rw [abs_le] at hd
  refine ⟨hq, by rw [pow_one]; linarith, ?_⟩
  rw [pow_one]
  calc x / q * keep ≤ (1 + pow2 (-53)) * keep := mul_le_mul_of_nonneg_right (by linarith) keep_pos.le
    _ ≤ 1 := by rw [keep, pow2_m53]; norm_num

/-- What a bounded number of roundings amounts to. -/
theorem Close.err {n : Nat} {x q : ℚ} (h : Close n x q) (hn : n ≤ 2 ^ 30) : |x - q| ≤ n * pow2 (-52) * |q| := by
  obtain ⟨a0, a1, a2⟩ := h
  have hu : (n : ℚ) * pow2 (-53) ≤ 1 / 4 := by
    have : (n : ℚ) ≤ 2 ^ 30 := by exact_mod_cast hn
    rw [pow2_m53]
    calc (n : ℚ) * (1 / 2 ^ 53) ≤ 2 ^ 30 * (1 / 2 ^ 53) := mul_le_mul_of_nonneg_right this (by norm_num)
      _ ≤ _ := by norm_num
  have hb : 1 - n * pow2 (-53) ≤ keep ^ n := by
    have := one_add_mul_le_pow (a := -pow2 (-53)) (by rw [pow2_m53]; norm_num) n
    rw [← sub_eq_add_neg] at this
    calc _ = 1 + n * -pow2 (-53) := by ring
      _ ≤ _ := this
  have h52 : pow2 (-52) = 2 * pow2 (-53) := by
    rw [show (-52 : Int) = 1 + (-53) by norm_num, pow2_add]; simp [pow2_eq]
  set t := (n : ℚ) * pow2 (-53) with ht
  have ht0 : 0 ≤ t := mul_nonneg (Nat.cast_nonneg _) (pow2_pos _).le
  have r0 : 0 < x / q := lt_of_lt_of_le (pow_pos keep_pos n) a1
  have hd : |x / q - 1| ≤ 2 * t := by
    rw [abs_le]
    constructor
    · linarith
    · have h1 : x / q * (1 - t) ≤ 1 := le_trans (mul_le_mul_of_nonneg_left hb r0.le) a2
      nlinarith
  have : x - q = (x / q - 1) * q := by rw [sub_mul, div_mul_cancel₀ _ a0, one_mul]
  rw [this, abs_mul, h52]
  calc _ ≤ 2 * t * |q| := mul_le_mul_of_nonneg_right hd (abs_nonneg _)
    _ = _ := by rw [ht]; ring

/-- A bounded number of roundings changes a number by less than a factor of two. -/
theorem Close.abs_bounds {n : Nat} {x q : ℚ} (h : Close n x q) (hn : n ≤ 2 ^ 30) : |q| / 2 ≤ |x| ∧ |x| ≤ 2 * |q| := by
  have he := h.err hn
  have h0 : (n : ℚ) * pow2 (-52) ≤ 1 / 2 := by
    have : (n : ℚ) ≤ 2 ^ 30 := by exact_mod_cast hn
    have h52 : pow2 (-52) = 1 / 2 ^ 52 := by rw [pow2_eq]; norm_num
    rw [h52]
    calc (n : ℚ) * (1 / 2 ^ 52) ≤ 2 ^ 30 * (1 / 2 ^ 52) := mul_le_mul_of_nonneg_right this (by norm_num)
      _ ≤ _ := by norm_num
  have hq := abs_nonneg q
  have he' : |x - q| ≤ 1 / 2 * |q| := le_trans he (mul_le_mul_of_nonneg_right h0 hq)
  have h1 := abs_sub_abs_le_abs_sub q x
  have h2 := abs_sub_abs_le_abs_sub x q
  rw [abs_sub_comm] at h1
  constructor <;> linarith

/-! ### `f64` operations -/

theorem mkRat_900 : mkRat 1 (2 ^ 900) = pow2 (-900) := by
  unfold pow2; rw [if_neg (by norm_num)]; rfl
theorem moderate_iff {q : ℚ} : moderate q = true ↔ pow2 (-900) ≤ |q| ∧ |q| ≤ pow2 900 := by
  unfold moderate
  rw [Bool.and_eq_true, decide_eq_true_eq, decide_eq_true_eq, mkRat_900]
  rw [show ((2 ^ 900 : Nat) : ℚ) = pow2 900 from by unfold pow2; rw [if_pos (by norm_num)]; rfl]

/-- The double denotes a rational that is `q` up to `n` roundings, and lies well inside the range. -/
def Holds (x : Fl) (n : Nat) (q : ℚ) : Prop :=
  ∃ v, f64Fmt.val x = some v ∧ Close n v q ∧ pow2 (-960) ≤ |v| ∧ |v| ≤ pow2 960

/-- Rounding a rational of moderate size. -/
theorem round_moderate {q : ℚ} (h1 : pow2 (-940) ≤ q) (h2 : q ≤ pow2 940) :
    f64Fmt.round q < f64Fmt.infBits ∧ Close 1 (f64Fmt.mag (f64Fmt.round q)) q := by
  have hq : 0 < q := lt_of_lt_of_le (pow2_pos _) h1
  have hr : f64Fmt.round q < f64Fmt.infBits := by
    obtain ⟨E, m, hr, hm, hEm, -, hmax⟩ := round_pos f64Fmt (by decide) hq
    have hl : log2 q ≤ 940 := by
      have := pow2_le.1 (le_trans (log2_spec hq).1 h2); omega
    have hp : (f64Fmt.p : Int) = 53 := rfl
    have he : f64Fmt.emin = -1074 := rfl
    have hE : E ≤ 1963 := by omega
    rw [hr, f64_inf]
    refine lt_of_le_of_lt (Nat.min_le_left _ _) ?_
    rw [f64_p] at *
    calc E * 2 ^ 52 + m ≤ 1963 * 2 ^ 52 + 2 ^ 53 := Nat.add_le_add (Nat.mul_le_mul_right _ hE) hm
      _ < _ := by norm_num
  refine ⟨hr, Close.of_err hq.ne' ?_⟩
  rw [abs_of_pos hq]
  exact round_rel_err f64Fmt (by decide) (le_trans (pow2_le.2 (by rw [f64_p]; simp only [f64Fmt]; norm_num)) h1) hr

theorem val_num {s : Bool} {n : Nat} (h : n < f64Fmt.infBits) : f64Fmt.val (.num s n) = some (if s then -f64Fmt.mag n else f64Fmt.mag n) := by
  simp [Fmt.val, not_le.2 h]

theorem val_inv {x : Fl} {v : ℚ} (h : f64Fmt.val x = some v) :
    ∃ s n, x = .num s n ∧ n < f64Fmt.infBits ∧ v = if s then -f64Fmt.mag n else f64Fmt.mag n := by
  cases x with
  | nan => simp [Fmt.val] at h
  | num s n =>
    simp only [Fmt.val] at h
    split at h
    · simp at h
    · rename_i hn
      injection h with h
      exact ⟨s, n, rfl, not_le.1 hn, h.symm⟩

/-- A correctly rounded result of moderate size. -/
theorem holds_round (s : Bool) {a q : ℚ} {n : Nat} (ha : 0 < a) (hc : Close n (if s then -a else a) q) (hn : n + 1 ≤ 2 ^ 30)
    (hq : moderate q = true) : Holds (.num s (f64Fmt.round a)) (n + 1) q := by
  rw [moderate_iff] at hq
  have hb := hc.abs_bounds (by omega)
  have habs : |if s then -a else a| = a := by split <;> simp [abs_of_pos ha]
  rw [habs] at hb
  have e901 : pow2 (-901) = pow2 (-900) / 2 := by
    rw [show (-900 : Int) = -901 + 1 by norm_num, pow2_add]; simp [pow2_eq]
  have e901' : pow2 901 = 2 * pow2 900 := by
    rw [show (901 : Int) = 1 + 900 by norm_num, pow2_add]; simp [pow2_eq]
  have h1 : pow2 (-901) ≤ a := by rw [e901]; linarith
  have h2 : a ≤ pow2 901 := by rw [e901']; linarith
  obtain ⟨hr, hcl⟩ := round_moderate (le_trans (pow2_le.2 (by norm_num)) h1) (le_trans h2 (pow2_le.2 (by norm_num)))
  refine ⟨_, val_num hr, ?_, ?_⟩
  · have : Close 1 (if s then -f64Fmt.mag (f64Fmt.round a) else f64Fmt.mag (f64Fmt.round a)) (if s then -a else a) := by
      cases s
      · exact hcl
      · obtain ⟨c0, c1, c2⟩ := hcl
        simp only [if_true]
        refine ⟨neg_ne_zero.2 c0, ?_, ?_⟩ <;> rw [neg_div_neg_eq] <;> assumption
    rw [Nat.add_comm]; exact this.trans hc
  · have hb' := hcl.abs_bounds (by norm_num)
    rw [abs_of_pos ha] at hb'
    have e : |if s then -f64Fmt.mag (f64Fmt.round a) else f64Fmt.mag (f64Fmt.round a)| = |f64Fmt.mag (f64Fmt.round a)| := by
      split <;> simp
    rw [e]
    have e902 : pow2 (-902) = pow2 (-901) / 2 := by
      rw [show (-901 : Int) = -902 + 1 by norm_num, pow2_add]; simp [pow2_eq]
    have e902' : pow2 902 = 2 * pow2 901 := by
      rw [show (902 : Int) = 1 + 901 by norm_num, pow2_add]; simp [pow2_eq]
    constructor
    · refine le_trans (pow2_le.2 (show (-960 : Int) ≤ -902 by norm_num)) ?_
      rw [e902]; linarith [hb'.1]
    · refine le_trans ?_ (pow2_le.2 (show (902 : Int) ≤ 960 by norm_num))
      rw [e902']; linarith [hb'.2]

theorem holds_mul {x y : Fl} {n m : Nat} {p q : ℚ} (h : Holds x n p) (h' : Holds y m q) (hn : n + m + 1 ≤ 2 ^ 30)
    (hq : moderate (p * q) = true) : Holds (f64Fmt.mul x y) (n + m + 1) (p * q) := by
  obtain ⟨v, hv, hc, _⟩ := h
  obtain ⟨w, hw, hc', _⟩ := h'
  obtain ⟨s, a, rfl, ha, rfl⟩ := val_inv hv
  obtain ⟨t, b, rfl, hb, rfl⟩ := val_inv hw
  rw [mul_num _ ha hb]
  have hcm := hc.mul hc'
  have h0 : 0 < f64Fmt.mag a := by
    rcases (mag_nonneg f64Fmt a).eq_or_lt with e | e
    · exact absurd (by simp [← e]) hc.ne
    · exact e
  have h1 : 0 < f64Fmt.mag b := by
    rcases (mag_nonneg f64Fmt b).eq_or_lt with e | e
    · exact absurd (by simp [← e]) hc'.ne
    · exact e
  refine holds_round _ (mul_pos h0 h1) ?_ hn hq
  convert hcm using 1
  cases s <;> cases t <;> simp

theorem holds_div {x y : Fl} {n m : Nat} {p q : ℚ} (h : Holds x n p) (h' : Holds y m q) (hn : n + m + 1 ≤ 2 ^ 30)
    (hq : moderate (p / q) = true) : Holds (f64Fmt.div x y) (n + m + 1) (p / q) := by
  obtain ⟨v, hv, hc, _⟩ := h
  obtain ⟨w, hw, hc', _⟩ := h'
  obtain ⟨s, a, rfl, ha, rfl⟩ := val_inv hv
  obtain ⟨t, b, rfl, hb, rfl⟩ := val_inv hw
  have hcm := hc.div hc'
  have h0 : 0 < f64Fmt.mag a := by
    rcases (mag_nonneg f64Fmt a).eq_or_lt with e | e
    · exact absurd (by simp [← e]) hc.ne
    · exact e
  have h1 : 0 < f64Fmt.mag b := by
    rcases (mag_nonneg f64Fmt b).eq_or_lt with e | e
    · exact absurd (by simp [← e]) hc'.ne
    · exact e
  have hb0 : b ≠ 0 := by rintro rfl; rw [mag_zero] at h1; exact lt_irrefl _ h1
  rw [div_num _ ha hb hb0]
  refine holds_round _ (div_pos h0 h1) ?_ hn hq
  convert hcm using 1
  cases s <;> cases t <;> simp [neg_div, div_neg]

theorem holds_one : Holds (f64Fmt.ofInt 1) 0 1 := by
  refine ⟨1, by decide +kernel, .refl one_ne_zero, ?_, ?_⟩
  · rw [abs_one, ← pow2_zero]; exact pow2_le.2 (by norm_num)
  · rw [abs_one, ← pow2_zero]; exact pow2_le.2 (by norm_num)

theorem Holds.mono {x : Fl} {n m : Nat} {q : ℚ} (h : Holds x n q) (hnm : n ≤ m) : Holds x m q := by
  obtain ⟨v, a, b, c⟩ := h; exact ⟨v, a, b.mono hnm, c⟩

/-- Powers up to a moderate one are moderate. -/
theorem moderate_pow {q : ℚ} {k K : Nat} (hk : k ≤ K) (h : moderate (q ^ K) = true) : moderate (q ^ k) = true := by
  rw [moderate_iff, abs_pow] at *
  have h900 : pow2 (-900) ≤ 1 := by rw [← pow2_zero]; exact pow2_le.2 (by norm_num)
  have h900' : 1 ≤ pow2 900 := by rw [← pow2_zero]; exact pow2_le.2 (by norm_num)
  rcases le_total |q| 1 with hq | hq
  · exact ⟨le_trans h.1 (pow_le_pow_of_le_one (abs_nonneg _) hq hk), le_trans (pow_le_one₀ (abs_nonneg _) hq) h900'⟩
  · exact ⟨le_trans h900 (one_le_pow₀ hq), le_trans (pow_le_pow_right₀ hq hk) h.2⟩

/-- compiler-rt's loop: `r ≈ q^i`, `a ≈ q^j`. -/
theorem holds_powiLoop {q : ℚ} {c : Nat} (b i j : Nat) (r a : Fl) (hj : 1 ≤ j) (hm : moderate (q ^ (i + j * b)) = true)
    (hN : (i + j * b) * (c + 1) ≤ 2 ^ 30) (hr : Holds r (i * (c + 1)) (q ^ i)) (ha : Holds a (j * (c + 1) - 1) (q ^ j)) :
    Holds (powiLoop f64Fmt r a b) ((i + j * b) * (c + 1)) (q ^ (i + j * b)) := by
  induction b using Nat.strong_induction_on generalizing i j r a with
  | _ b ih =>
    unfold powiLoop
    by_cases hb : b = 0
    · subst hb; simpa using hr
    · rw [dif_neg hb]
      have hjb : j ≤ j * b := Nat.le_mul_of_pos_right _ (by omega)
      have hjc : 1 ≤ j * (c + 1) := Nat.mul_pos hj (by omega)
      have hmul : Holds (f64Fmt.mul r a) ((i + j) * (c + 1)) (q ^ (i + j)) := by
        have e : i * (c + 1) + (j * (c + 1) - 1) + 1 = (i + j) * (c + 1) := by rw [Nat.add_mul]; omega
        rw [← e, pow_add]
        refine holds_mul hr ha ?_ ?_
        · rw [e]; exact le_trans (Nat.mul_le_mul_right _ (by omega)) hN
        · rw [← pow_add]; exact moderate_pow (by omega) hm
      have hsq : 2 ≤ b → Holds (f64Fmt.mul a a) ((j + j) * (c + 1) - 1) (q ^ (j + j)) := by
        intro hb2
        have h2 : j + j ≤ j * b := by
          calc j + j = j * 2 := by ring
            _ ≤ _ := Nat.mul_le_mul_left _ hb2
        have e : (j * (c + 1) - 1) + (j * (c + 1) - 1) + 1 = (j + j) * (c + 1) - 1 := by rw [Nat.add_mul]; omega
        rw [← e, pow_add]
        refine holds_mul ha ha ?_ ?_
        · rw [e]; exact le_trans (Nat.sub_le _ _) (le_trans (Nat.mul_le_mul_right _ (by omega)) hN)
        · rw [← pow_add]; exact moderate_pow (by omega) hm
      rcases Nat.mod_two_eq_zero_or_one b with hmod | hmod
      · have hne : b / 2 ≠ 0 := by omega
        simp only [if_neg hne, if_neg (show ¬ b % 2 = 1 by omega)]
        have hjj : j * b = (j + j) * (b / 2) := by
          conv_lhs => rw [show b = 2 * (b / 2) by omega]
          ring
        rw [hjj] at hm hN ⊢
        exact ih (b / 2) (by omega) i (j + j) _ _ (by omega) hm hN hr (hsq (by omega))
      · simp only [if_pos hmod]
        by_cases hne : b / 2 = 0
        · rw [if_pos hne]
          have : b = 1 := by omega
          subst this; rw [Nat.mul_one]; exact hmul
        · rw [if_neg hne]
          have hjj : i + j * b = (i + j) + (j + j) * (b / 2) := by
            conv_lhs => rw [show b = 2 * (b / 2) + 1 by omega]
            ring
          rw [hjj] at hm hN ⊢
          exact ih (b / 2) (by omega) (i + j) (j + j) _ _ (by omega) hm hN hmul (hsq (by omega))

theorem holds_powi {q : ℚ} {c : Nat} {x : Fl} {e : Int} (hx : Holds x c q) (hm : moderate (q ^ e) = true)
    (hN : e.natAbs * (c + 1) + 1 ≤ 2 ^ 30) : Holds (powiCompilerRt f64Fmt x e) (e.natAbs * (c + 1) + 1) (q ^ e) := by
  have hq0 : q ≠ 0 := hx.choose_spec.2.1.1
  have hm' : moderate (q ^ e.natAbs) = true := by
    rcases Int.natAbs_eq e with h | h
    · rw [h, zpow_natCast] at hm; simpa using hm
    · rw [h, zpow_neg, zpow_natCast] at hm
      rw [moderate_iff, abs_inv] at hm
      rw [moderate_iff]
      have h0 : 0 < |q ^ e.natAbs| := abs_pos.2 (pow_ne_zero _ hq0)
      have hp := pow2_neg_mul 900
      have hp900 := pow2_pos 900
      have hpm := pow2_pos (-900)
      constructor
      · have := hm.2
        rw [inv_le_comm₀ h0 hp900] at this
        rw [eq_inv_of_mul_eq_one_right hp]; exact this
      · have := hm.1
        rw [le_inv_comm₀ hpm h0] at this
        rw [eq_inv_of_mul_eq_one_left hp]; exact this
  have h1 := holds_powiLoop (q := q) (c := c) e.natAbs 0 1 (f64Fmt.ofInt 1) x (by omega) (by simpa using hm') (by simp; omega)
    (by simpa using holds_one) (by simpa using hx)
  simp only [Nat.zero_add, Nat.one_mul] at h1
  unfold powiCompilerRt
  simp only
  split
  · rename_i hneg
    have e1 : q ^ e = 1 / q ^ e.natAbs := by
      conv_lhs => rw [show e = -(e.natAbs : Int) by omega]
      rw [zpow_neg, zpow_natCast, one_div]
    rw [e1] at hm ⊢
    have := holds_div holds_one h1 (by omega) hm
    rwa [Nat.zero_add] at this
  · rename_i hneg
    have e1 : q ^ e = q ^ e.natAbs := by
      conv_lhs => rw [show e = (e.natAbs : Int) by omega]
      rw [zpow_natCast]
    rw [e1]; exact h1.mono (by omega)

/-! ### Stored factors -/

theorem holds_store {lib : FloatLib} (hl : PowiTwo lib (-1023)) {x : Fl} {n : Nat} {q : ℚ} (h : Holds x n q) :
    Holds ((Magnitude.fromF64 x).intoF64 lib) n q := by
  obtain ⟨v, hv, hc, h1, h2⟩ := h
  obtain ⟨s, k, rfl, hk, rfl⟩ := val_inv hv
  have habs : |if s then -f64Fmt.mag k else f64Fmt.mag k| = f64Fmt.mag k := by
    split <;> simp [abs_of_nonneg (mag_nonneg f64Fmt k)]
  have hb := (mag_ge_iff k).1 (le_trans (pow2_le.2 (by norm_num)) (habs ▸ h1))
  rw [roundtrip_normal _ hl (by norm_num) s hk.le (by omega) (by omega)]
  exact ⟨_, hv, hc, h1, h2⟩

/-- A library that reads back stored numbers, when costs are counted `k`-fold. -/
structure LibStores (lib : FloatLib) (k : Nat) : Prop where
  two : PowiTwo lib (-1023)
  pos : 1 ≤ k
/-- A library whose `powi` rounds at most `k` times as often as the books say. -/
structure LibCost (lib : FloatLib) (k : Nat) : Prop extends LibStores lib k where
  zero : ∀ x, lib.powi x 0 = f64Fmt.ofInt 1
  pow : ∀ {q : ℚ} {c : Nat} {x : Fl} {e : Int}, Holds x (k * c) q → moderate (q ^ e) = true → k * (e.natAbs * (c + 1) + 1) ≤ 2 ^ 30 →
    Holds (lib.powi x e) (k * (e.natAbs * (c + 1) + 1)) (q ^ e)

theorem rtLib_cost (powf : Fl → Fl → Fl) : LibCost (rtLib powf) 1 where
  two := rtLib_powiTwo powf
  pos := le_rfl
  zero x := by
    show powiCompilerRt f64Fmt x 0 = _
    unfold powiCompilerRt powiLoop; simp
  pow := by
    intro q c x e hx hm hN
    rw [Nat.one_mul] at *
    exact holds_powi hx hm hN

/-- The relation between a stored conversion factor and the books kept about it. -/
def Tracks (lib : FloatLib) (k : Nat) (m : Magnitude) (e : Estimate) : Prop :=
  e.inRange = true → e.roundings ≤ 2 ^ 30 ∧ (k * e.roundings ≤ 2 ^ 30 → Holds (m.intoF64 lib) (k * e.roundings) e.value)

theorem result_inRange {q : ℚ} {n : Nat} {ok : Bool} (h : (Estimate.result q n ok).inRange = true) :
    ok = true ∧ moderate q = true ∧ n ≤ 2 ^ 30 := by
  simp only [Estimate.result, Bool.and_eq_true, decide_eq_true_eq] at h
  exact ⟨h.1.1, h.1.2, h.2⟩

section
variable {lib : FloatLib} {k : Nat} (hl : LibStores lib k)
include hl

theorem tracks_one : Tracks lib k (magOpsInt lib).one estimateOps.one := fun _ => ⟨Nat.zero_le _, fun _ => holds_store hl.two holds_one⟩
theorem cost_result {a b : Nat} (h : k * (a + b + 1) ≤ 2 ^ 30) : k * a ≤ 2 ^ 30 ∧ k * b ≤ 2 ^ 30 ∧ k * a + k * b + 1 ≤ k * (a + b + 1) := by
  have := hl.pos
  rw [Nat.mul_add, Nat.mul_add] at *
  omega
theorem tracks_mul {a b : Magnitude} {x y : Estimate} (h : Tracks lib k a x) (h' : Tracks lib k b y) :
    Tracks lib k ((magOpsInt lib).mul a b) (estimateOps.mul x y) := by
  intro hr
  obtain ⟨hok, hq, hb⟩ := result_inRange hr
  refine ⟨hb, fun hn => ?_⟩
  rw [Bool.and_eq_true] at hok
  have hn : k * (x.roundings + y.roundings + 1) ≤ 2 ^ 30 := hn
  obtain ⟨c1, c2, c3⟩ := cost_result hl hn
  exact holds_store hl.two ((holds_mul ((h hok.1).2 c1) ((h' hok.2).2 c2) (by omega) hq).mono c3)
theorem tracks_div {a b : Magnitude} {x y : Estimate} (h : Tracks lib k a x) (h' : Tracks lib k b y) :
    Tracks lib k ((magOpsInt lib).div a b) (estimateOps.div x y) := by
  intro hr
  obtain ⟨hok, hq, hb⟩ := result_inRange hr
  refine ⟨hb, fun hn => ?_⟩
  rw [Bool.and_eq_true] at hok
  have hn : k * (x.roundings + y.roundings + 1) ≤ 2 ^ 30 := hn
  obtain ⟨c1, c2, c3⟩ := cost_result hl hn
  exact holds_store hl.two ((holds_div ((h hok.1).2 c1) ((h' hok.2).2 c2) (by omega) hq).mono c3)
omit hl in
theorem asI32_small {e : Int} (h : e.natAbs < 2 ^ 31) : Magnitude.asI32 e = e := by
  unfold Magnitude.asI32
  rw [Int.bmod_eq_of_le] <;> omega
omit hl in
theorem tracks_pow (hl : LibCost lib k) {a : Magnitude} {x : Estimate} (h : Tracks lib k a x) (e : Int) :
    Tracks lib k ((magOpsInt lib).pow a e) (estimateOps.pow x e) := by
  intro hr
  obtain ⟨hok, hq, hb⟩ := result_inRange hr
  refine ⟨hb, fun hn => ?_⟩
  rw [Bool.and_eq_true, decide_eq_true_eq] at hok
  have hn : k * (e.natAbs * (x.roundings + 1) + 1) ≤ 2 ^ 30 := hn
  show Holds ((Magnitude.fromF64 (lib.powi (a.intoF64 lib) (Magnitude.asI32 e))).intoF64 lib) _ _
  rw [asI32_small hok.2]
  refine holds_store hl.two ?_
  by_cases h0 : e = 0
  · subst h0
    rw [hl.zero]
    have e : Holds (f64Fmt.ofInt 1) (k * (Int.natAbs 0 * (x.roundings + 1) + 1)) (x.value ^ (0 : Int)) := by
      rw [zpow_zero]; exact holds_one.mono (Nat.zero_le _)
    exact e
  · refine hl.pow ((h hok.1).2 ?_) hq hn
    have : k * (1 * (x.roundings + 1)) ≤ k * (e.natAbs * (x.roundings + 1)) := Nat.mul_le_mul_left _ (Nat.mul_le_mul_right _ (Int.natAbs_pos.2 h0))
    rw [Nat.mul_add] at hn
    rw [Nat.one_mul, Nat.mul_add] at this
    omega

omit hl in
theorem moderate_ne {q : ℚ} (h : moderate q = true) : q ≠ 0 := by
  rw [moderate_iff] at h
  intro e; rw [e, abs_zero] at h
  exact absurd h.1 (not_le.2 (pow2_pos _))

theorem tracks_number (n : Number) : Tracks lib k n.magnitude n.estimate := by
  intro hr
  obtain ⟨-, hq, hn⟩ := result_inRange hr
  have h0 := moderate_ne hq
  refine ⟨hn, fun _ => ?_⟩
  refine holds_store hl.two (Holds.mono (n := 1) ?_ (Nat.mul_pos hl.pos one_pos))
  cases n with
  | int v =>
    simp only [Number.exact] at h0 hq ⊢
    have hv : v ≠ 0 := by exact_mod_cast h0
    refine holds_round (n := 0) (decide (v < 0)) (a := (v.natAbs : ℚ)) (by exact_mod_cast Int.natAbs_pos.2 hv) ?_ hn hq
    have : (if decide (v < 0) = true then -(v.natAbs : ℚ) else (v.natAbs : ℚ)) = v := by
      by_cases h : v < 0
      · simp only [h, decide_true, if_true]
        have : ((v.natAbs : Int) : ℚ) = ((-v : Int) : ℚ) := by congr 1; omega
        rw [Int.cast_natCast, Int.cast_neg] at this; linarith
      · simp only [h, decide_false, Bool.false_eq_true, if_false]
        have : ((v.natAbs : Int) : ℚ) = ((v : Int) : ℚ) := by congr 1; omega
        rwa [Int.cast_natCast] at this
    rw [this]; exact .refl h0
  | float neg m e =>
    simp only [Number.exact] at h0 hq ⊢
    have hm : 0 < (m : ℚ) * 10 ^ e := by
      rcases Nat.eq_zero_or_pos m with h | h
      · subst h; simp at h0
      · positivity
    refine holds_round (n := 0) neg (a := (m : ℚ) * 10 ^ e) hm ?_ hn hq
    have : (if neg = true then -((m : ℚ) * 10 ^ e) else (m : ℚ) * 10 ^ e) = (if neg = true then -1 else 1) * ((m : ℚ) * 10 ^ e) := by
      split <;> simp
    rw [this]; exact .refl h0

theorem tracks_prefix (p : Prefix) : Tracks lib k p.factor p.estimate := by
  intro hr
  obtain ⟨-, hq, hn⟩ := result_inRange hr
  refine ⟨hn, fun _ => ?_⟩
  refine holds_store hl.two (Holds.mono (n := 1) ?_ (Nat.mul_pos hl.pos one_pos))
  have h0 : 0 < p.literal := by cases p <;> simp [Prefix.literal]
  exact holds_round (n := 0) false h0 (.refl h0.ne') hn hq

/-! ### Running both at once -/
end

/-- Pairs of a stored factor and correct books about it. -/
def Tracked (lib : FloatLib) (k : Nat) := { p : Magnitude × Estimate // Tracks lib k p.1 p.2 }

section
variable {lib : FloatLib} {k : Nat} (hl : LibCost lib k)

@[reducible] def trackedOps : MagOps Int (Tracked lib k) where
  one := ⟨(_, _), tracks_one hl.toLibStores⟩
  mul a b := ⟨(_, _), tracks_mul hl.toLibStores a.2 b.2⟩
  div a b := ⟨(_, _), tracks_div hl.toLibStores a.2 b.2⟩
  pow a e := ⟨(_, _), tracks_pow hl a.2 e⟩
  isOne a := (magOpsInt lib).isOne a.1.1

theorem hom_fst : @MagHom Int (Tracked lib k) Magnitude (trackedOps hl) (magOpsInt lib) (fun t => t.1.1) :=
  @MagHom.mk _ _ _ (trackedOps hl) (magOpsInt lib) _ rfl (fun _ _ => rfl) (fun _ _ => rfl) (fun _ _ => rfl)
theorem hom_snd : @MagHom Int (Tracked lib k) Estimate (trackedOps hl) estimateOps (fun t => t.1.2) :=
  @MagHom.mk _ _ _ (trackedOps hl) estimateOps _ rfl (fun _ _ => rfl) (fun _ _ => rfl) (fun _ _ => rfl)
theorem hom_value : @MagHom Int Estimate ℚ estimateOps rationalOps Estimate.value :=
  @MagHom.mk _ _ _ estimateOps rationalOps _ rfl (fun _ _ => rfl) (fun _ _ => rfl) (fun _ _ => rfl)
end

/-- A homomorphism carries the whole macro along. -/
theorem unitSystem_mapMag {E M M' : Type} [Exponent E] [ReadExponent E] [MagOps E M] [MagOps E M'] (φ : M → M') [MagHom E φ]
    (mag : Number → M) (factor : Prefix → M) (ts : List Tok) :
    unitSystem (E := E) (φ ∘ mag) (φ ∘ factor) ts =
      match unitSystem (E := E) mag factor ts with
      | .syntaxError => .syntaxError
      | .panic => .panic
      | .done r => .done (r.1.mapMag φ, r.2) := by
  unfold unitSystem
  cases parseSystem (ReadExponent.rational E) ts with
  | none => rfl
  | some t =>
    simp only [readTemplates_mapMag (φ := φ) mag t]
    cases readTemplates (E := E) mag t with
    | none => rfl
    | some t =>
      simp only [Option.map_some, runUnitSystem_mapMag (φ := φ) factor t]
      cases runUnitSystem factor t with
      | none => rfl
      | some r => rfl

end Diman
