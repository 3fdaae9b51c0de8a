import Verif.Proofs.Book
import Verif.Proofs.FloatOrder
import Verif.Proofs.BookIdeal
import Verif.Spec.Root
/-!
# Square roots of floats (C58)
-/
namespace Diman

theorem two_pow_pred (f : Fmt) (hp : 1 ≤ f.p) : 2 ^ f.p = 2 * 2 ^ (f.p - 1) := by
  obtain ⟨k, hk⟩ : ∃ k, f.p = k + 1 := ⟨f.p - 1, by omega⟩
  rw [hk]; simp [pow_succ, mul_comm]

/-- A power of two in range is a float. -/
theorem round_pow2 (f : Fmt) (hp : 1 ≤ f.p) {j : Int} (h1 : f.emin + ((f.p : Int) - 1) ≤ j) (ho : f.round (pow2 j) < f.infBits) :
    f.mag (f.round (pow2 j)) = pow2 j := by
  obtain ⟨E, hE⟩ : ∃ E : Nat, j = f.emin + ((f.p : Int) - 1) + E := ⟨(j - (f.emin + ((f.p : Int) - 1))).toNat, by omega⟩
  have hm : f.mag (E * 2 ^ (f.p - 1) + 2 ^ (f.p - 1)) = pow2 j := by
    rw [mag_compose f hp (by rw [two_pow_pred f hp]; omega) (.inr le_rfl), hE]
    rw [show f.emin + ((f.p : Int) - 1) + (E : Int) = ((f.p - 1 : Nat) : Int) + (f.emin + E) by omega, pow2_add _ (f.emin + E), pow2_nat]
  rw [← hm] at ho ⊢
  by_cases h : E * 2 ^ (f.p - 1) + 2 ^ (f.p - 1) ≤ f.infBits
  · rw [round_mag f hp h]
  · exfalso
    have := round_mono f hp ((mag_strictMono f hp).monotone (Nat.le_of_not_le h))
    rw [round_mag f hp le_rfl] at this
    omega

/-- The root of the rounded square: the number itself is strictly nearer than any other float. -/
theorem root_square_nearest (f : Fmt) (hp : 1 ≤ f.p) (he : f.emin + ((f.p : Int) - 1) ≤ 0) {n : Nat}
    (hu : pow2 (f.emin + ((f.p : Int) - 1)) ≤ f.mag n * f.mag n) (ho : f.round (f.mag n * f.mag n) < f.infBits) {k : Nat} (hk : k ≠ n) :
    |((f.mag n : ℚ) : ℝ) - Real.sqrt (f.mag (f.round (f.mag n * f.mag n)) : ℚ)| <
      |((f.mag k : ℚ) : ℝ) - Real.sqrt (f.mag (f.round (f.mag n * f.mag n)) : ℚ)| := by
  obtain ⟨E, m, hn, hm, hEm⟩ := bits_decompose f hp n
  have h2 := two_pow_pred f hp
  have hB : 0 < 2 ^ (f.p - 1) := by positivity
  have hmag : f.mag n = (m : ℚ) * pow2 (f.emin + E) := by rw [hn]; exact mag_compose f hp hm.le hEm
  have hup := pow2_pos (f.emin + E)
  have hq0 : 0 ≤ f.mag n := mag_nonneg f n
  -- `n` is normal
  have hmB : 2 ^ (f.p - 1) ≤ m := by
    rcases hEm with h0 | h
    · by_contra hc
      have hc : m < 2 ^ (f.p - 1) := by omega
      have hlt : f.mag n < pow2 (f.emin + ((f.p : Int) - 1)) := by
        rw [hmag, h0, show f.emin + ((f.p : Int) - 1) = ((f.p - 1 : Nat) : Int) + (f.emin + (0 : Nat)) by push_cast; omega, pow2_add _ (f.emin + (0 : Nat)), pow2_nat]
        refine mul_lt_mul_of_pos_right ?_ (pow2_pos _)
        exact_mod_cast hc
      have h1 : pow2 (f.emin + ((f.p : Int) - 1)) ≤ 1 := by rw [← pow2_zero]; exact pow2_le.2 he
      nlinarith
    · exact h
  set u := pow2 (f.emin + E) with hu'
  set q := f.mag n with hq
  set y := f.mag (f.round (q * q)) with hy
  have hy0 : 0 ≤ y := mag_nonneg _ _
  rcases eq_or_lt_of_le hmB with hme | hml
  · -- a power of two: the square is exact
    have hq2 : q = pow2 (((f.p - 1 : Nat) : Int) + (f.emin + E)) := by rw [hmag, ← hme, pow2_add _ (f.emin + E), pow2_nat]
    have hyq : y = q * q := by
      rw [hy, hq2, ← pow2_add]
      rw [hq2, ← pow2_add] at hu ho
      exact round_pow2 f hp (pow2_le.1 hu) ho
    rw [hyq, Rat.cast_mul, Real.sqrt_mul_self (by exact_mod_cast hq0), sub_self, abs_zero, abs_pos, sub_ne_zero]
    exact_mod_cast (mag_strictMono f hp).injective.ne hk
  · have hrel := round_rel_err f hp hu ho
    rw [← hy] at hrel
    have hP : pow2 (-(f.p : Int)) = 1 / (2 * (2 ^ (f.p - 1) : Nat)) := by
      have h1 := pow2_neg_mul (f.p : Int)
      rw [pow2_nat, h2] at h1
      have hB' : (0 : ℚ) < (2 ^ (f.p - 1) : Nat) := by exact_mod_cast hB
      rw [eq_div_iff (by positivity)]; push_cast at h1 ⊢; linarith
    have hb : |y - q * q| < u * u * ((m : ℚ) - 1 / 4) := by
      refine lt_of_le_of_lt hrel ?_
      rw [hP, hmag]
      have hB' : (0 : ℚ) < (2 ^ (f.p - 1) : Nat) := by exact_mod_cast hB
      have hm1 : (m : ℚ) ≤ 2 * (2 ^ (f.p - 1) : Nat) - 1 := by
        have : m + 1 ≤ 2 * 2 ^ (f.p - 1) := by omega
        have h' : ((m + 1 : Nat) : ℚ) ≤ ((2 * 2 ^ (f.p - 1) : Nat) : ℚ) := by exact_mod_cast this
        push_cast at h' ⊢; linarith
      have hm2 : ((2 ^ (f.p - 1) : Nat) : ℚ) < m := by exact_mod_cast hml
      set B : ℚ := ((2 ^ (f.p - 1) : Nat) : ℚ) with hBd
      have : 1 / (2 * B) * ((m : ℚ) * u * (m * u)) = u * u * (m * m / (2 * B)) := by field_simp
      rw [this]
      refine mul_lt_mul_of_pos_left ?_ (by positivity)
      rw [div_lt_iff₀ (by positivity)]
      nlinarith
    have hm1 : (1 : ℚ) ≤ m := by exact_mod_cast (by omega : 1 ≤ m)
    -- the root is within half a unit
    have hroot : |((q : ℚ) : ℝ) - Real.sqrt (y : ℚ)| < ((u : ℚ) : ℝ) / 2 := by
      have ⟨b1, b2⟩ := abs_lt.1 hb
      have hlow : (q - u / 2) * (q - u / 2) < y := by rw [hmag] at *; nlinarith
      have hhigh : y < (q + u / 2) * (q + u / 2) := by rw [hmag] at *; nlinarith
      have hql : 0 ≤ q - u / 2 := by rw [hmag]; nlinarith
      rw [abs_lt]
      have l1 : ((q - u / 2 : ℚ) : ℝ) < Real.sqrt (y : ℚ) := Real.lt_sqrt_of_sq_lt (by rw [sq]; exact_mod_cast hlow)
      have l2 : Real.sqrt (y : ℚ) < ((q + u / 2 : ℚ) : ℝ) := by
        rw [Real.sqrt_lt' (by exact_mod_cast (by linarith : (0 : ℚ) < q + u / 2)), sq]; exact_mod_cast hhigh
      push_cast at l1 l2
      constructor <;> linarith
    have hur : (0 : ℝ) < ((u : ℚ) : ℝ) := by exact_mod_cast hup
    have ⟨r1, r2⟩ := abs_lt.1 hroot
    rcases lt_or_gt_of_ne hk with h | h
    · have hpred : f.mag (n - 1) = q - u := by
        have : n - 1 = E * 2 ^ (f.p - 1) + (m - 1) := by omega
        rw [this, mag_compose f hp (by omega) (.inr (by omega)), hmag, Nat.cast_sub (by omega)]
        push_cast; ring
      have hle : f.mag k ≤ q - u := by rw [← hpred]; exact (mag_strictMono f hp).monotone (by omega)
      have hle' : ((f.mag k : ℚ) : ℝ) ≤ q - u := by exact_mod_cast hle
      rw [abs_lt]
      have : |((f.mag k : ℚ) : ℝ) - Real.sqrt (y : ℚ)| = Real.sqrt (y : ℚ) - f.mag k := by
        rw [abs_of_neg (by linarith)]; ring
      rw [this]
      constructor <;> linarith
    · have hsucc : f.mag (n + 1) = q + u := by
        have : n + 1 = E * 2 ^ (f.p - 1) + (m + 1) := by omega
        rw [this, mag_compose f hp (by omega) (.inr (by omega)), hmag]
        push_cast; ring
      have hle : q + u ≤ f.mag k := by rw [← hsucc]; exact (mag_strictMono f hp).monotone (by omega)
      have hle' : (q : ℝ) + u ≤ ((f.mag k : ℚ) : ℝ) := by exact_mod_cast hle
      have : |((f.mag k : ℚ) : ℝ) - Real.sqrt (y : ℚ)| = f.mag k - Real.sqrt (y : ℚ) := abs_of_pos (by linarith)
      rw [this, abs_lt]
      constructor <;> linarith

theorem one_mag (t : FloatTy) : t.fmt.mag (t.fmt.round 1) = 1 ∧ t.fmt.round 1 < t.fmt.infBits ∧ t.fmt.round 1 ≠ 0 := by cases t <;> decide +kernel

theorem one_mul_fl (t : FloatTy) {y : Fl} (hy : t.fmt.Valid y) : t.fmt.mul (t.fmt.ofInt 1) y = y := by
  obtain ⟨h1, h2, h3⟩ := one_mag t
  have ho : t.fmt.ofInt 1 = .num false (t.fmt.round 1) := by simp [Fmt.ofInt]
  rw [ho]
  cases y with
  | nan => rfl
  | num s n =>
    have hn : n ≤ t.fmt.infBits := hy
    have hb : (false != s) = s := by cases s <;> rfl
    unfold Fmt.mul
    simp only [Fmt.isInf, decide_eq_true_eq, not_le.2 h2, if_false, h3, hb, h1, one_mul, round_mag t.fmt (fmt_p t) hn]
    split
    · rw [le_antisymm hn (by assumption)]
    · rfl

/-- `x.powi(2)` is `x * x`, with both libraries. -/
theorem powi_two {P : PlatformFns} {std : Bool} (hP : P.BuildPowi std) (t : FloatTy) (x : Fl) : P.powi t x 2 = t.fmt.mul x x := by
  rw [hP, powi_eq]
  have hv := Fmt.mul_valid t.fmt x x
  cases std
  · simp only [powiBuild, Bool.false_eq_true, if_false, powiNoStd]
    rw [if_neg (by norm_num)]
    have h2 : squareSkip t.fmt.mul x 2 = (t.fmt.mul x x, 1) := by
      rw [squareSkip, dif_neg (by norm_num), squareSkip, dif_pos (by norm_num)]
    simp [powNoStd, h2]
  · simp only [powiBuild, if_true, powiStd]
    rw [if_neg (by norm_num)]
    show squareMultiply t.fmt.mul (t.fmt.ofInt 1) x 2 = _
    rw [squareMultiply, dif_neg (by norm_num)]
    simp only [show (2 % 2 = 1) = False by norm_num, show (2 / 2 = 0) = False by norm_num, if_false]
    rw [squareMultiply, dif_neg (by norm_num)]
    simp only [show 2 / 2 = 1 by norm_num, show 1 % 2 = 1 by norm_num, if_true, show 1 / 2 = 0 by norm_num]
    exact one_mul_fl t hv

theorem normal_eq (t : FloatTy) : t.normal = ((pow2 (t.fmt.emin + ((t.fmt.p : Int) - 1)) : ℚ) : ℝ) := by
  cases t <;> rw [pow2_real] <;> rfl

/-- The root of the square of a number that neither underflows nor overflows. -/
theorem sqrt_square {P : PlatformFns} (hs : P.NearestSqrt) (t : FloatTy) {n : Nat} (hn : n < t.fmt.infBits)
    (h1 : t.normal ≤ ((t.fmt.mag n : ℚ) : ℝ) ^ 2) (h2 : ((t.fmt.mag n : ℚ) : ℝ) ^ 2 < t.large) :
    t.fmt.round (t.fmt.mag n * t.fmt.mag n) < t.fmt.infBits ∧
    P.sqrt t (.num false (t.fmt.round (t.fmt.mag n * t.fmt.mag n))) = .num false n := by
  have hr := (round_bound t (q := t.fmt.mag n * t.fmt.mag n) (mul_self_nonneg _) (by push_cast; rw [← sq]; exact h2)).1
  refine ⟨hr, ?_⟩
  obtain ⟨m, hm, he, hmin⟩ := hs.finite t _ hr
  rw [he]
  by_contra hne
  have hne : m ≠ n := fun h => hne (by rw [h])
  have h3 := root_square_nearest t.fmt (fmt_p t) (by cases t <;> decide) (n := n) (by
    rw [normal_eq, sq] at h1; exact_mod_cast h1) hr hne
  exact absurd (hmin n hn) (not_le.2 h3)

/-- Correctly rounded roots keep order. -/
theorem sqrt_mono_bits {P : PlatformFns} (hs : P.NearestSqrt) (t : FloatTy) {a b m m' : Nat} (hb : b < t.fmt.infBits) (hab : a ≤ b)
    (ha : P.sqrt t (.num false a) = .num false m) (hb' : P.sqrt t (.num false b) = .num false m') : m ≤ m' := by
  obtain ⟨k, hk, e, hmin⟩ := hs.finite t a (lt_of_le_of_lt hab hb)
  obtain ⟨k', hk', e', hmin'⟩ := hs.finite t b hb
  rw [ha] at e; rw [hb'] at e'
  cases e; cases e'
  rcases eq_or_lt_of_le hab with rfl | hlt
  · rw [ha] at hb'; cases hb'; exact le_rfl
  by_contra hc
  have hc : m' < m := by omega
  have h1 : ((t.fmt.mag m' : ℚ) : ℝ) < ((t.fmt.mag m : ℚ) : ℝ) := by exact_mod_cast mag_strictMono t.fmt (fmt_p t) hc
  have hq : ((t.fmt.mag a : ℚ) : ℝ) < ((t.fmt.mag b : ℚ) : ℝ) := by exact_mod_cast mag_strictMono t.fmt (fmt_p t) hlt
  have h2 : Real.sqrt (t.fmt.mag a : ℚ) < Real.sqrt (t.fmt.mag b : ℚ) :=
    Real.sqrt_lt_sqrt (by exact_mod_cast mag_nonneg _ _) hq
  have i1 := hmin m' hk'
  have i2 := hmin' m hk
  have i1 := sq_le_sq.2 i1
  have i2 := sq_le_sq.2 i2
  nlinarith

/-- A platform with correctly rounded roots satisfies the error bound. -/
theorem NearestSqrt.bound {P : PlatformFns} (hs : P.NearestSqrt) (t : FloatTy) {n : Nat} (hn : n < t.fmt.infBits) :
    ∃ z : ℚ, t.fmt.val (P.sqrt t (.num false n)) = some z ∧
      |(z : ℝ) - Real.sqrt (t.fmt.mag n : ℚ)| ≤ t.unitRoundoff * Real.sqrt (t.fmt.mag n : ℚ) + t.underflowUnit := by
  obtain ⟨m, hm, he, hmin⟩ := hs.finite t n hn
  have hv : t.fmt.val (.num false n) = some (t.fmt.mag n) := by rw [fmtVal_num t.fmt hn]; rfl
  have hlt : Real.sqrt (t.fmt.mag n : ℚ) < t.large := by
    have h1 := val_lt_large hv
    have h4 : (4 : ℝ) ≤ t.large := by
      cases t
      · show (4 : ℝ) ≤ 2 ^ (127 : ℤ)
        rw [show (4 : ℝ) = 2 ^ (2 : ℤ) by norm_num]
        exact zpow_le_zpow_right₀ (by norm_num) (by norm_num)
      · show (4 : ℝ) ≤ 2 ^ (1023 : ℤ)
        rw [show (4 : ℝ) = 2 ^ (2 : ℤ) by norm_num]
        exact zpow_le_zpow_right₀ (by norm_num) (by norm_num)
    rw [abs_of_nonneg (by exact_mod_cast mag_nonneg _ _)] at h1
    rw [Real.sqrt_lt' (by linarith)]
    nlinarith
  obtain ⟨x, z, hz, hb⟩ := exists_nearest t (Real.sqrt_nonneg _) hlt
  obtain ⟨s, k, rfl, hk, rfl⟩ := fmtVal_inv hz
  refine ⟨t.fmt.mag m, by rw [he, fmtVal_num t.fmt hm]; rfl, (hmin k hk).trans (le_trans ?_ hb)⟩
  have h0 : (0 : ℝ) ≤ ((t.fmt.mag k : ℚ) : ℝ) := by exact_mod_cast mag_nonneg _ _
  have h0' := Real.sqrt_nonneg ((t.fmt.mag n : ℚ) : ℝ)
  cases s
  · exact le_rfl
  · simp only [if_true, Rat.cast_neg]
    rw [abs_of_nonpos (by linarith : -((t.fmt.mag k : ℚ) : ℝ) - Real.sqrt (t.fmt.mag n : ℚ) ≤ 0), abs_le]
    constructor <;> linarith

/-- Roots with infinity included. -/
theorem sqrt_le {P : PlatformFns} (hs : P.NearestSqrt) (t : FloatTy) {a b : Nat} (hb : b ≤ t.fmt.infBits) (hab : a ≤ b) :
    ∃ m m' : Nat, P.sqrt t (.num false a) = .num false m ∧ P.sqrt t (.num false b) = .num false m' ∧ m ≤ m' ∧ m' ≤ t.fmt.infBits := by
  rcases eq_or_lt_of_le hb with rfl | hlt
  · rcases eq_or_lt_of_le hab with rfl | ha
    · exact ⟨_, _, hs.infinite t, hs.infinite t, le_rfl, le_rfl⟩
    · obtain ⟨m, hm, he, _⟩ := hs.finite t a ha
      exact ⟨_, _, he, hs.infinite t, hm.le, le_rfl⟩
  · obtain ⟨m, hm, he, _⟩ := hs.finite t a (lt_of_le_of_lt hab hlt)
    obtain ⟨m', hm', he', _⟩ := hs.finite t b hlt
    exact ⟨m, m', he, he', sqrt_mono_bits hs t hlt hab he he', hm'.le⟩

/-- Adding a number that is not negative does not make a number smaller. -/
theorem add_nonneg_ge (f : Fmt) (hp : 1 ≤ f.p) {a b : Nat} (ha : a ≤ f.infBits) (hb : b ≤ f.infBits) :
    ∃ c, f.add (.num false a) (.num false b) = .num false c ∧ a ≤ c ∧ b ≤ c ∧ c ≤ f.infBits := by
  unfold Fmt.add
  simp only [Fmt.isInf, decide_eq_true_eq, ne_eq, not_true_eq_false, and_false, if_false]
  by_cases h1 : f.infBits ≤ a
  · exact ⟨f.infBits, by rw [if_pos h1], ha, hb, le_rfl⟩
  by_cases h2 : f.infBits ≤ b
  · exact ⟨f.infBits, by rw [if_neg h1, if_pos h2], ha, hb, le_rfl⟩
  rw [if_neg h1, if_neg h2]
  simp only [Fmt.toRat, Bool.false_eq_true, if_false, Bool.and_self]
  have m1 := mag_nonneg f a
  have m2 := mag_nonneg f b
  by_cases h0 : f.mag a + f.mag b = 0
  · have a0 : a = 0 := by
      by_contra h; have := mag_pos f (Nat.pos_of_ne_zero h); linarith
    have b0 : b = 0 := by
      by_contra h; have := mag_pos f (Nat.pos_of_ne_zero h); linarith
    exact ⟨0, by rw [if_pos h0], a0.le, b0.le, Nat.zero_le _⟩
  · refine ⟨_, by rw [if_neg h0, decide_eq_false (by linarith), abs_of_nonneg (by linarith)], ?_, ?_, round_le_inf _ _⟩
    · have := round_mono f hp (by linarith : f.mag a ≤ f.mag a + f.mag b)
      rwa [round_mag f hp ha] at this
    · have := round_mono f hp (by linarith : f.mag b ≤ f.mag a + f.mag b)
      rwa [round_mag f hp hb] at this

theorem add_zero_fl (f : Fmt) (hp : 1 ≤ f.p) {a : Nat} (ha : a ≤ f.infBits) :
    f.add (.num false a) (.num false 0) = .num false a ∧ f.add (.num false 0) (.num false a) = .num false a := by
  obtain ⟨c, e, h1, _, h3⟩ := add_nonneg_ge f hp ha (Nat.zero_le _)
  obtain ⟨c', e', _, h2, h3'⟩ := add_nonneg_ge f hp (Nat.zero_le f.infBits) ha
  have key : ∀ x y : Fl, x = .num false a ∧ y = .num false 0 ∨ x = .num false 0 ∧ y = .num false a → f.add x y = .num false a := by
    rintro x y h
    have hq : f.toRat x + f.toRat y = f.mag a := by
      rcases h with ⟨rfl, rfl⟩ | ⟨rfl, rfl⟩ <;> simp [Fmt.toRat, mag_zero]
    by_cases hi : f.infBits ≤ a
    · have hai := le_antisymm ha hi
      rcases h with ⟨rfl, rfl⟩ | ⟨rfl, rfl⟩
      · rw [e]; congr 1; omega
      · rw [e']; congr 1; omega
    · have h0 : ¬ f.infBits ≤ 0 := by omega
      rcases h with ⟨rfl, rfl⟩ | ⟨rfl, rfl⟩ <;>
      · unfold Fmt.add
        simp only [Fmt.isInf, decide_eq_true_eq, hi, h0, if_false, hq, Bool.and_self]
        by_cases hz : f.mag a = 0
        · have : a = 0 := by
            by_contra h; have := mag_pos f (Nat.pos_of_ne_zero h); linarith
          rw [if_pos hz, this]
        · rw [if_neg hz, decide_eq_false (by have := mag_nonneg f a; linarith), abs_of_nonneg (mag_nonneg f a), round_mag f hp ha]
  exact ⟨key _ _ (.inl ⟨rfl, rfl⟩), key _ _ (.inr ⟨rfl, rfl⟩)⟩

end Diman
