import Verif.Model.Float
import Mathlib.Algebra.Order.Field.Rat
import Mathlib.Algebra.Order.Field.Power
import Mathlib.Data.Nat.Log
import Mathlib.Tactic.Ring
import Mathlib.Tactic.FieldSimp
import Mathlib.Tactic.Linarith
import Mathlib.Tactic.NormNum
import Mathlib.Tactic.Positivity
/-! Lemmas about rounding. -/
namespace Diman

theorem pow2_eq (e : Int) : pow2 e = (2 : ℚ) ^ e := by
  unfold pow2
  split
  · rename_i h
    obtain ⟨n, rfl⟩ := Int.eq_ofNat_of_zero_le h
    simp
  · rename_i h
    obtain ⟨n, hn⟩ := Int.eq_ofNat_of_zero_le (show 0 ≤ -e by omega)
    have : e = -(n : Int) := by omega
    subst this
    simp [Rat.mkRat_eq_div]

theorem pow2_pos (e : Int) : 0 < pow2 e := by rw [pow2_eq]; positivity

theorem pow2_add (a b : Int) : pow2 (a + b) = pow2 a * pow2 b := by
  simp only [pow2_eq]; exact zpow_add₀ (by norm_num) a b

theorem pow2_zero : pow2 0 = 1 := by simp [pow2_eq]

theorem pow2_nat (n : Nat) : pow2 n = ((2 ^ n : Nat) : ℚ) := by simp [pow2_eq]

theorem pow2_neg_mul (a : Int) : pow2 a * pow2 (-a) = 1 := by
  rw [← pow2_add]; simp [pow2_eq]

theorem pow2_le {a b : Int} : pow2 a ≤ pow2 b ↔ a ≤ b := by
  simp only [pow2_eq]; exact zpow_le_zpow_iff_right₀ (by norm_num)

theorem pow2_lt {a b : Int} : pow2 a < pow2 b ↔ a < b := by
  simp only [pow2_eq]; exact zpow_lt_zpow_iff_right₀ (by norm_num)

/-- `log2` is the binary logarithm rounded down. -/
theorem log2_spec {q : ℚ} (hq : 0 < q) : pow2 (log2 q) ≤ q ∧ q < pow2 (log2 q + 1) := by
  have hn : 0 < q.num := Rat.num_pos.2 hq
  obtain ⟨n, hnn⟩ := Int.eq_ofNat_of_zero_le hn.le
  have hn0 : n ≠ 0 := by rintro rfl; omega
  have hd0 : q.den ≠ 0 := q.den_nz
  have hqe : q = (n : ℚ) / (q.den : ℚ) := by
    conv_lhs => rw [← Rat.num_div_den q]
    rw [hnn]; simp
  have a1 : ((2 ^ n.log2 : Nat) : ℚ) ≤ n := by exact_mod_cast Nat.log2_self_le hn0
  have a2 : (n : ℚ) < ((2 ^ (n.log2 + 1) : Nat) : ℚ) := by exact_mod_cast Nat.lt_log2_self
  have b1 : ((2 ^ q.den.log2 : Nat) : ℚ) ≤ q.den := by exact_mod_cast Nat.log2_self_le hd0
  have b2 : (q.den : ℚ) < ((2 ^ (q.den.log2 + 1) : Nat) : ℚ) := by exact_mod_cast Nat.lt_log2_self
  have hdp : (0 : ℚ) < q.den := by exact_mod_cast Nat.pos_of_ne_zero hd0
  have hk1 : pow2 ((n.log2 : Int) - (q.den.log2 : Int) - 1) ≤ q := by
    refine le_of_le_of_eq ((le_div_iff₀ hdp).2 ?_) hqe.symm
    calc pow2 ((n.log2 : Int) - (q.den.log2 : Int) - 1) * q.den
        ≤ pow2 ((n.log2 : Int) - (q.den.log2 : Int) - 1) * ((2 ^ (q.den.log2 + 1) : Nat) : ℚ) :=
          mul_le_mul_of_nonneg_left b2.le (pow2_pos _).le
      _ = ((2 ^ n.log2 : Nat) : ℚ) := by
          rw [← pow2_nat, ← pow2_nat, ← pow2_add]; congr 1; push_cast; ring
      _ ≤ n := a1
  have hk2 : q < pow2 ((n.log2 : Int) - (q.den.log2 : Int) + 1) := by
    refine lt_of_eq_of_lt hqe ((div_lt_iff₀ hdp).2 ?_)
    calc (n : ℚ) < ((2 ^ (n.log2 + 1) : Nat) : ℚ) := a2
      _ = pow2 ((n.log2 : Int) - (q.den.log2 : Int) + 1) * ((2 ^ q.den.log2 : Nat) : ℚ) := by
          rw [← pow2_nat, ← pow2_nat, ← pow2_add]; congr 1; push_cast; ring
      _ ≤ _ := mul_le_mul_of_nonneg_left b1 (pow2_pos _).le
  unfold log2
  have hnt : q.num.toNat = n := by rw [hnn]; rfl
  simp only [hnt]
  split
  · rename_i h; exact ⟨h, hk2⟩
  · rename_i h
    refine ⟨hk1, ?_⟩
    have : ((n.log2 : Int) - (q.den.log2 : Int)) - 1 + 1 = (n.log2 : Int) - (q.den.log2 : Int) := by ring
    rw [this]; exact not_le.1 h

theorem log2_unique {q : ℚ} {k : Int} (h1 : pow2 k ≤ q) (h2 : q < pow2 (k + 1)) : log2 q = k := by
  obtain ⟨a, b⟩ := log2_spec (lt_of_lt_of_le (pow2_pos k) h1)
  have h3 := pow2_lt.1 (lt_of_le_of_lt a h2)
  have h4 := pow2_lt.1 (lt_of_le_of_lt h1 b)
  omega

theorem rat_floor_eq (s : ℚ) : s.floor = ⌊s⌋ := rfl

theorem rne_int (z : Int) : rne (z : ℚ) = z := by
  unfold rne
  have : (z : ℚ).floor = z := by rw [rat_floor_eq]; simp
  simp [this]

/-- Rounding moves a number by at most one half. -/
theorem rne_err (s : ℚ) : |(rne s : ℚ) - s| ≤ 1 / 2 := by
  have h1 : (s.floor : ℚ) ≤ s := by rw [rat_floor_eq]; exact Int.floor_le s
  have h2 : s < s.floor + 1 := by rw [rat_floor_eq]; exact Int.lt_floor_add_one s
  unfold rne
  simp only
  split
  · rw [abs_le]; constructor <;> linarith
  · split
    · rw [abs_le]; push_cast; constructor <;> linarith
    · split
      · rw [abs_le]; constructor <;> linarith
      · rw [abs_le]; push_cast; constructor <;> linarith

theorem rne_ge {s : ℚ} {z : Int} (h : (z : ℚ) ≤ s) : z ≤ rne s := by
  have hf : z ≤ s.floor := by rw [rat_floor_eq]; exact Int.le_floor.2 h
  unfold rne; simp only
  repeat' split
  all_goals omega

theorem rne_le {s : ℚ} {z : Int} (h : s ≤ (z : ℚ)) : rne s ≤ z := by
  by_contra hc
  have hc : z + 1 ≤ rne s := by omega
  have h1 : (s.floor : ℚ) ≤ s := by rw [rat_floor_eq]; exact Int.floor_le s
  have hfz : s.floor ≤ z := by exact_mod_cast le_trans h1 h
  have he := abs_le.1 (rne_err s)
  have hcq : ((z : ℚ) + 1) ≤ rne s := by exact_mod_cast hc
  linarith [he.2]

/-- Magnitude bits of `m · 2^(emin+E)`. -/
theorem mag_compose (f : Fmt) (hp : 1 ≤ f.p) {E m : Nat} (hm : m ≤ 2 ^ f.p) (h : E = 0 ∨ 2 ^ (f.p - 1) ≤ m) :
    f.mag (E * 2 ^ (f.p - 1) + m) = (m : ℚ) * pow2 (f.emin + E) := by
  have h2 : 2 ^ f.p = 2 * 2 ^ (f.p - 1) := by
    obtain ⟨k, hk⟩ : ∃ k, f.p = k + 1 := ⟨f.p - 1, by omega⟩
    rw [hk]; simp [pow_succ, mul_comm]
  have hPpos : 0 < 2 ^ (f.p - 1) := by positivity
  generalize hP : 2 ^ (f.p - 1) = P at *
  rw [h2] at hm
  unfold Fmt.mag
  rw [hP]
  rcases lt_or_ge m P with hlt | hge
  · have hE : E = 0 := h.resolve_right (by omega)
    subst hE; simp [hlt]
  · rw [if_neg (by have := Nat.zero_le (E * P); omega)]
    rcases lt_or_eq_of_le hm with hlt2 | heq
    · have e1 : (E * P + m) / P = E + 1 := by
        rw [show E * P + m = (m - P) + (E + 1) * P by
          rw [Nat.add_mul]; omega, Nat.add_mul_div_right _ _ hPpos, Nat.div_eq_of_lt (by omega)]; omega
      have e2 : (E * P + m) % P = m - P := by
        rw [show E * P + m = (m - P) + (E + 1) * P by
          rw [Nat.add_mul]; omega, Nat.add_mul_mod_self_right, Nat.mod_eq_of_lt (by omega)]
      rw [e1, e2, show m - P + P = m by omega]
      congr 2; push_cast; ring
    · have e1 : (E * P + m) / P = E + 2 := by
        rw [heq, show E * P + 2 * P = (E + 2) * P by ring, Nat.mul_div_cancel _ hPpos]
      have e2 : (E * P + m) % P = 0 := by
        rw [heq, show E * P + 2 * P = (E + 2) * P by ring, Nat.mul_mod_left]
      rw [e1, e2, heq]
      rw [show f.emin + ((E + 2 : Nat) : Int) - 1 = (f.emin + E) + 1 by push_cast; ring, pow2_add]
      rw [show pow2 1 = 2 by simp [pow2_eq]]
      push_cast; ring

/-- Every bit pattern is `E·2^(p-1) + m` with `m < 2^p`, `m` normalised unless `E = 0`. -/
theorem bits_decompose (f : Fmt) (hp : 1 ≤ f.p) (n : Nat) :
    ∃ E m : Nat, n = E * 2 ^ (f.p - 1) + m ∧ m < 2 ^ f.p ∧ (E = 0 ∨ 2 ^ (f.p - 1) ≤ m) := by
  have h2 : 2 ^ f.p = 2 * 2 ^ (f.p - 1) := by
    obtain ⟨k, hk⟩ : ∃ k, f.p = k + 1 := ⟨f.p - 1, by omega⟩
    rw [hk]; simp [pow_succ, mul_comm]
  have hPpos : 0 < 2 ^ (f.p - 1) := by positivity
  rw [h2]
  generalize 2 ^ (f.p - 1) = P at *
  rcases lt_or_ge n P with h | h
  · exact ⟨0, n, by simp, by omega, Or.inl rfl⟩
  · have hdiv : 1 ≤ n / P := (Nat.one_le_div_iff hPpos).2 h
    have hmod := Nat.mod_lt n hPpos
    have hdm := Nat.div_add_mod n P
    obtain ⟨k, hk⟩ : ∃ k, n / P = k + 1 := ⟨n / P - 1, by omega⟩
    refine ⟨k, n % P + P, ?_, by omega, Or.inr (by omega)⟩
    rw [hk] at hdm
    have : P * (k + 1) = k * P + P := by ring
    omega

theorem mag_nonneg (f : Fmt) (n : Nat) : 0 ≤ f.mag n := by
  unfold Fmt.mag; split
  · exact mul_nonneg (by positivity) (pow2_pos _).le
  · exact mul_nonneg (by positivity) (pow2_pos _).le

theorem mag_zero (f : Fmt) : f.mag 0 = 0 := by
  unfold Fmt.mag; simp

theorem mag_pos (f : Fmt) {n : Nat} (h : 0 < n) : 0 < f.mag n := by
  unfold Fmt.mag; split
  · exact mul_pos (by exact_mod_cast h) (pow2_pos _)
  · exact mul_pos (by positivity) (pow2_pos _)

/-- The scale used by `round`, and where the scaled value lies. -/
theorem round_scale (f : Fmt) {q : ℚ} (hq : 0 < q) :
    ∃ E : Nat, max (log2 q - ((f.p : Int) - 1)) f.emin = f.emin + E ∧
      q * pow2 (-(f.emin + E)) < pow2 f.p ∧ (E = 0 ∨ pow2 ((f.p : Int) - 1) ≤ q * pow2 (-(f.emin + E))) := by
  obtain ⟨h1, h2⟩ := log2_spec hq
  rcases le_total (log2 q - ((f.p : Int) - 1)) f.emin with h | h
  · refine ⟨0, by rw [max_eq_right h]; simp, ?_, Or.inl rfl⟩
    have : q < pow2 (f.emin + f.p) := lt_of_lt_of_le h2 (pow2_le.2 (by omega))
    calc q * pow2 (-(f.emin + (0 : Nat))) < pow2 (f.emin + f.p) * pow2 (-(f.emin + (0 : Nat))) :=
          mul_lt_mul_of_pos_right this (pow2_pos _)
      _ = pow2 f.p := by rw [← pow2_add]; congr 1; push_cast; ring
  · obtain ⟨E, hE⟩ := Int.eq_ofNat_of_zero_le (show 0 ≤ log2 q - ((f.p : Int) - 1) - f.emin by omega)
    have hE' : f.emin + (E : Int) = log2 q - ((f.p : Int) - 1) := by omega
    refine ⟨E, by rw [max_eq_left h, hE'], ?_, Or.inr ?_⟩
    · rw [hE']
      calc q * pow2 (-(log2 q - ((f.p : Int) - 1))) < pow2 (log2 q + 1) * pow2 (-(log2 q - ((f.p : Int) - 1))) :=
            mul_lt_mul_of_pos_right h2 (pow2_pos _)
        _ = pow2 f.p := by rw [← pow2_add]; congr 1; ring
    · rw [hE']
      calc pow2 ((f.p : Int) - 1) = pow2 (log2 q) * pow2 (-(log2 q - ((f.p : Int) - 1))) := by
            rw [← pow2_add]; congr 1; ring
        _ ≤ _ := mul_le_mul_of_nonneg_right h1 (pow2_pos _).le

/-- Full description of the unclamped rounding result. -/
theorem round_pos (f : Fmt) (hp : 1 ≤ f.p) {q : ℚ} (hq : 0 < q) :
    ∃ E m : Nat, f.round q = min (E * 2 ^ (f.p - 1) + m) f.infBits ∧ m ≤ 2 ^ f.p ∧
      (E = 0 ∨ 2 ^ (f.p - 1) ≤ m) ∧ (m : Int) = rne (q * pow2 (-(f.emin + E))) ∧
      max (log2 q - ((f.p : Int) - 1)) f.emin = f.emin + E := by
  obtain ⟨E, hE, h1, h2⟩ := round_scale f hq
  set s := q * pow2 (-(f.emin + E)) with hs
  have hspos : 0 < s := mul_pos hq (pow2_pos _)
  have hr0 : 0 ≤ rne s := rne_ge (by simpa using hspos.le)
  obtain ⟨m, hm⟩ := Int.eq_ofNat_of_zero_le hr0
  refine ⟨E, m, ?_, ?_, ?_, hm.symm, hE⟩
  · unfold Fmt.round
    rw [if_neg (not_le.2 hq)]
    simp only [hE]
    rw [← hs, hm]
    congr 2
    · congr 1; omega
  · have : rne s ≤ ((2 ^ f.p : Nat) : Int) := by
      apply rne_le
      have : s < pow2 f.p := h1
      rw [pow2_nat] at this
      push_cast at this ⊢; exact this.le
    rw [hm] at this; exact_mod_cast this
  · rcases h2 with h | h
    · exact Or.inl h
    · right
      have : ((2 ^ (f.p - 1) : Nat) : Int) ≤ rne s := by
        apply rne_ge
        rw [show (f.p : Int) - 1 = ((f.p - 1 : Nat) : Int) by omega, pow2_nat] at h
        push_cast at h ⊢; exact h
      rw [hm] at this; exact_mod_cast this

theorem round_le_inf (f : Fmt) (q : ℚ) : f.round q ≤ f.infBits := by
  unfold Fmt.round; split
  · exact Nat.zero_le _
  · exact Nat.min_le_right _ _

theorem round_zero (f : Fmt) : f.round 0 = 0 := by unfold Fmt.round; simp

/-- Rounding a representable value is exact. -/
theorem round_mag (f : Fmt) (hp : 1 ≤ f.p) {n : Nat} (hn : n ≤ f.infBits) : f.round (f.mag n) = n := by
  rcases Nat.eq_zero_or_pos n with rfl | hpos
  · rw [mag_zero, round_zero]
  obtain ⟨E, m, hnE, hm, hEm⟩ := bits_decompose f hp n
  have hmag := mag_compose f hp hm.le hEm
  rw [← hnE] at hmag
  have hq := mag_pos f hpos
  obtain ⟨E', m', hr, hm', hEm', hrne, hmax⟩ := round_pos f hp hq
  have hm0 : 0 < m := by
    rcases Nat.eq_zero_or_pos m with rfl | h
    · rw [hmag] at hq; simp at hq
    · exact h
  -- the scale is the same
  have hEE : E' = E := by
    rcases hEm with h0 | hge
    · subst h0
      have : f.mag n < pow2 (f.emin + f.p) := by
        rw [hmag, pow2_add f.emin f.p, mul_comm]; simp only [Nat.cast_zero, add_zero]
        apply mul_lt_mul_of_pos_left _ (pow2_pos _)
        rw [pow2_nat]; exact_mod_cast hm
      have := pow2_lt.1 (lt_of_le_of_lt (log2_spec hq).1 this)
      omega
    · have hl : log2 (f.mag n) = f.emin + E + ((f.p : Int) - 1) := by
        apply log2_unique
        · rw [hmag, pow2_add, mul_comm]
          apply mul_le_mul_of_nonneg_right _ (pow2_pos _).le
          rw [show (f.p : Int) - 1 = ((f.p - 1 : Nat) : Int) by omega, pow2_nat]
          exact_mod_cast hge
        · rw [hmag, show f.emin + (E : Int) + ((f.p : Int) - 1) + 1 = (f.emin + E) + f.p by ring, pow2_add (f.emin + E),
            mul_comm]
          apply mul_lt_mul_of_pos_left _ (pow2_pos _)
          rw [pow2_nat]; exact_mod_cast hm
      omega
  subst hEE
  have : (m' : Int) = m := by
    rw [hrne, hmag, mul_assoc, pow2_neg_mul, mul_one]
    exact_mod_cast rne_int m
  have : m' = m := by exact_mod_cast this
  subst this
  rw [hr, ← hnE]; exact Nat.min_eq_left hn

/-- Relative error of rounding: away from underflow and overflow at most `2^-p`. -/
theorem round_rel_err (f : Fmt) (hp : 1 ≤ f.p) {q : ℚ} (hn : pow2 (f.emin + ((f.p : Int) - 1)) ≤ q)
    (ho : f.round q < f.infBits) : |f.mag (f.round q) - q| ≤ pow2 (-(f.p : Int)) * q := by
  have hq : 0 < q := lt_of_lt_of_le (pow2_pos _) hn
  obtain ⟨E, m, hr, hm, hEm, hrne, hmax⟩ := round_pos f hp hq
  have hr' : f.round q = E * 2 ^ (f.p - 1) + m := by omega
  rw [hr', mag_compose f hp hm hEm]
  obtain ⟨l1, l2⟩ := log2_spec hq
  have hl : f.emin + ((f.p : Int) - 1) ≤ log2 q := by
    by_contra hc
    have := pow2_le.2 (show log2 q + 1 ≤ f.emin + ((f.p : Int) - 1) by omega)
    linarith
  have hE : f.emin + (E : Int) = log2 q - ((f.p : Int) - 1) := by omega
  have herr := rne_err (q * pow2 (-(f.emin + E)))
  rw [← hrne] at herr
  have e1 : (m : ℚ) * pow2 (f.emin + E) - q
      = (((m : Int) : ℚ) - q * pow2 (-(f.emin + E))) * pow2 (f.emin + E) := by
    rw [sub_mul, mul_assoc q, mul_comm (pow2 (-(f.emin + E))), pow2_neg_mul]; simp
  rw [e1, abs_mul, abs_of_pos (pow2_pos _)]
  calc _ ≤ 1 / 2 * pow2 (f.emin + E) := mul_le_mul_of_nonneg_right herr (pow2_pos _).le
    _ = pow2 (-(f.p : Int)) * pow2 (log2 q) := by
      rw [hE, ← pow2_add, show (1 / 2 : ℚ) = pow2 (-1) by simp [pow2_eq], ← pow2_add]
      congr 1; ring
    _ ≤ _ := mul_le_mul_of_nonneg_left l1 (pow2_pos _).le

/-- `2^e` in the normal or subnormal range, as bits. -/
theorem round_nat (f : Fmt) (hp : 1 ≤ f.p) {n : Nat} {q : ℚ} (h : f.mag n = q) (hn : n ≤ f.infBits) :
    f.round q = n := by rw [← h, round_mag f hp hn]

theorem mul_num (f : Fmt) {s t : Bool} {a b : Nat} (ha : a < f.infBits) (hb : b < f.infBits) :
    f.mul (.num s a) (.num t b) = .num (s != t) (f.round (f.mag a * f.mag b)) := by
  simp [Fmt.mul, Fmt.isInf, not_le.2 ha, not_le.2 hb]

theorem div_num (f : Fmt) {s t : Bool} {a b : Nat} (ha : a < f.infBits) (hb : b < f.infBits) (hb0 : b ≠ 0) :
    f.div (.num s a) (.num t b) = .num (s != t) (f.round (f.mag a / f.mag b)) := by
  simp [Fmt.div, Fmt.isInf, not_le.2 ha, not_le.2 hb, hb0]

theorem rne_nearest (s : ℚ) (z : Int) : |(rne s : ℚ) - s| ≤ |(z : ℚ) - s| := by
  rcases eq_or_ne z (rne s) with rfl | hne
  · exact le_refl _
  have h1 := rne_err s
  have h2 : (1 : ℚ) ≤ |(z : ℚ) - rne s| := by
    have : (1 : Int) ≤ |z - rne s| := Int.one_le_abs (sub_ne_zero.2 hne)
    exact_mod_cast this
  have h3 : |(z : ℚ) - rne s| ≤ |(z : ℚ) - s| + |(rne s : ℚ) - s| := by
    rw [abs_sub_comm (rne s : ℚ) s]; exact abs_sub_le _ _ _
  linarith

/-- `round` picks a nearest representable value (when it does not overflow): no bit pattern denotes a closer number. -/
theorem round_nearest (f : Fmt) (hp : 1 ≤ f.p) {q : ℚ} (hq : 0 < q) (ho : f.round q < f.infBits) (n : Nat) :
    |f.mag (f.round q) - q| ≤ |f.mag n - q| := by
  obtain ⟨E, m, hr, hm, hEm, hrne, hmax⟩ := round_pos f hp hq
  have hr' : f.round q = E * 2 ^ (f.p - 1) + m := by omega
  rw [hr', mag_compose f hp hm hEm]
  obtain ⟨E2, hE2, _, hlow⟩ := round_scale f hq
  have : E2 = E := by omega
  subst this
  have hs : ∀ z : ℚ, |z * pow2 (f.emin + E2) - q| = |z - q * pow2 (-(f.emin + E2))| * pow2 (f.emin + E2) := by
    intro z
    have e1 : z * pow2 (f.emin + E2) - q = (z - q * pow2 (-(f.emin + E2))) * pow2 (f.emin + E2) := by
      rw [sub_mul, mul_assoc q, mul_comm (pow2 (-(f.emin + E2))), pow2_neg_mul]; simp
    rw [e1, abs_mul, abs_of_pos (pow2_pos _)]
  have hz : ∀ z : Int, |(m : ℚ) * pow2 (f.emin + E2) - q| ≤ |(z : ℚ) * pow2 (f.emin + E2) - q| := by
    intro z
    rw [hs, hs]
    refine mul_le_mul_of_nonneg_right ?_ (pow2_pos _).le
    have := rne_nearest (q * pow2 (-(f.emin + E2))) z
    rw [← hrne] at this
    exact_mod_cast this
  obtain ⟨F, k, hn, hk, hF⟩ := bits_decompose f hp n
  rw [hn, mag_compose f hp hk.le hF]
  rcases le_or_gt E2 F with hle | hlt
  · have : (k : ℚ) * pow2 (f.emin + F) = (((k * 2 ^ (F - E2) : Nat) : Int) : ℚ) * pow2 (f.emin + E2) := by
      rw [show f.emin + (F : Int) = ((F - E2 : Nat) : Int) + (f.emin + E2) by omega, pow2_add, pow2_nat]
      push_cast; ring
    rw [this]; exact hz _
  · have hlow := hlow.resolve_left (by omega)
    have h1 : pow2 ((f.p : Int) - 1) * pow2 (f.emin + E2) ≤ q := by
      have := mul_le_mul_of_nonneg_right hlow (pow2_pos (f.emin + E2)).le
      rwa [mul_assoc q, mul_comm (pow2 (-(f.emin + E2))), pow2_neg_mul, mul_one] at this
    have h2 : (k : ℚ) * pow2 (f.emin + F) ≤ pow2 ((f.p : Int) - 1) * pow2 (f.emin + E2) := by
      have hk' : (k : ℚ) ≤ pow2 (f.p : Int) := by rw [pow2_nat]; exact_mod_cast hk.le
      calc (k : ℚ) * pow2 (f.emin + F) ≤ pow2 (f.p : Int) * pow2 (f.emin + F) := mul_le_mul_of_nonneg_right hk' (pow2_pos _).le
        _ = pow2 (f.p + (f.emin + F)) := (pow2_add _ _).symm
        _ ≤ pow2 (((f.p : Int) - 1) + (f.emin + E2)) := pow2_le.2 (by omega)
        _ = _ := pow2_add _ _
    have h3 := hz ((2 ^ (f.p - 1) : Nat) : Int)
    refine h3.trans ?_
    have h4 : (((2 ^ (f.p - 1) : Nat) : Int) : ℚ) = pow2 ((f.p : Int) - 1) := by
      rw [show (f.p : Int) - 1 = ((f.p - 1 : Nat) : Int) by omega, pow2_nat]; simp
    rw [h4, abs_of_nonpos (by linarith), abs_of_nonpos (by linarith)]
    linarith

end Diman
