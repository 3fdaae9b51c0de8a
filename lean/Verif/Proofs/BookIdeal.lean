import Verif.Proofs.Book
/-! The values in the books are those of exact arithmetic; platforms as assumed exist. -/
namespace Diman

theorem squareMultiply_real (b : Nat) (r a : ℝ) : squareMultiply (· * ·) r a b = r * a ^ b := by
  induction b using Nat.strongRecOn generalizing r a with
  | _ b ih =>
    rw [squareMultiply]
    by_cases h : b = 0
    · simp [h]
    · simp only [dif_neg h]
      have hb : b = b % 2 + 2 * (b / 2) := by omega
      have e : r * a ^ b = (if b % 2 = 1 then r * a else r) * (a * a) ^ (b / 2) := by
        conv_lhs => rw [hb, pow_add, pow_mul, pow_two, ← mul_assoc]
        congr 1
        split
        · rename_i h1; rw [h1, pow_one]
        · rename_i h1; rw [show b % 2 = 0 by omega, pow_zero, mul_one]
      rw [e]
      by_cases h2 : b / 2 = 0
      · simp only [if_pos h2]; rw [h2, pow_zero, mul_one]
      · simp only [if_neg h2]
        exact ih _ (by omega) _ _

theorem squareSkip_real (b : Nat) (hb : b ≠ 0) (a : ℝ) :
    (squareSkip (· * ·) a b).1 ^ (squareSkip (· * ·) a b).2 = a ^ b ∧ (squareSkip (· * ·) a b).2 % 2 = 1 := by
  induction b using Nat.strongRecOn generalizing a with
  | _ b ih =>
    rw [squareSkip]
    by_cases h : b = 0 ∨ b % 2 = 1
    · simp only [dif_pos h]; exact ⟨trivial, by omega⟩
    · simp only [dif_neg h]
      obtain ⟨h1, h2⟩ := ih (b / 2) (by omega) (by omega) (a * a)
      refine ⟨h1.trans ?_, h2⟩
      rw [← pow_two, ← pow_mul]; congr 1; omega

theorem squareAcc_real (b : Nat) (r a : ℝ) : squareAcc (· * ·) r a b = r * a ^ (b - b % 2) := by
  induction b using Nat.strongRecOn generalizing r a with
  | _ b ih =>
    rw [squareAcc]
    by_cases h : b ≤ 1
    · simp only [dif_pos h]
      rw [show b - b % 2 = 0 by omega, pow_zero, mul_one]
    · simp only [dif_neg h]
      rw [ih _ (by omega), show b - b % 2 = 2 * (b / 2 % 2) + 2 * (b / 2 - b / 2 % 2) by omega, pow_add, pow_mul a 2, pow_mul a 2, pow_two]
      split
      · rename_i h1; rw [h1, pow_one, mul_assoc r]
      · rename_i h1; rw [show b / 2 % 2 = 0 by omega, pow_zero, one_mul]

theorem powNoStd_real (b : Nat) (a : ℝ) : powNoStd (· * ·) 1 a b = a ^ b := by
  unfold powNoStd
  split
  · rename_i h; rw [h, pow_zero]
  · rename_i h
    obtain ⟨h1, h2⟩ := squareSkip_real b h a
    rw [← h1]
    split
    · rename_i h3; rw [h3, pow_one]
    · rw [squareAcc_real, h2]
      conv_rhs => rw [show (squareSkip (· * ·) a b).2 = 1 + ((squareSkip (· * ·) a b).2 - 1) by omega, pow_add, pow_one]

/-- Without rounding, both algorithms compute the power. -/
theorem powiBuild_real (std : Bool) (a : ℝ) (e : Int) : powiBuild (· * ·) std (· / ·) 1 a e = a ^ e := by
  unfold powiBuild
  have pos : ¬ e < 0 → a ^ e = a ^ e.natAbs := by
    intro h
    conv_lhs => rw [show e = (e.natAbs : Int) by omega]
    rw [zpow_natCast]
  have neg : e < 0 → a ^ e = (a ^ e.natAbs)⁻¹ := by
    intro h
    conv_lhs => rw [show e = -(e.natAbs : Int) by omega]
    rw [zpow_neg, zpow_natCast]
  cases std
  · simp only [Bool.false_eq_true, if_false, powiNoStd, powNoStd_real]
    split
    · rename_i h; rw [neg h, one_div, inv_pow]
    · rename_i h; rw [pos h]
  · simp only [if_true, powiStd, squareMultiply_real, one_mul]
    split
    · rename_i h; rw [neg h, one_div]
    · rename_i h; rw [pos h]

open Classical in
/-- The values in the books are those of exact arithmetic. -/
theorem idealPrims_book [IdealFns] (std : Bool) (t₀ : FloatTy) :
    PrimsRel idealPrims (bookPrims std t₀) (fun r b => r = b.value) (fun r b => r = b.value) where
  zero _ := rfl
  one _ := rfl
  add := by rintro t _ _ _ _ rfl rfl; rfl
  sub := by rintro t _ _ _ _ rfl rfl; rfl
  mul := by rintro t _ _ _ _ rfl rfl; rfl
  div := by rintro t _ _ _ _ rfl rfl; rfl
  neg := by rintro t _ _ rfl; rfl
  abs := by rintro t _ _ rfl; rfl
  min := by rintro t _ _ _ _ rfl rfl; rfl
  max := by rintro t _ _ _ _ rfl rfl; rfl
  clamp := by
    rintro t _ x' _ y' _ z' w' rfl rfl rfl h
    change (if y'.ok ∧ z'.ok ∧ t = t₀ ∧ y'.value ≤ z'.value ∧ y'.value + y'.err ≤ z'.value - z'.err then _ else none) = _ at h
    split at h
    · rename_i hc
      injection h with h
      subst h
      exact ⟨_, if_pos hc.2.2.2.1, rfl⟩
    · cases h
  powi := by
    rintro t _ x' i rfl
    have := powiBuild_rel (R := fun (r : ℝ) (b : Bounded) => r = b.value) (mul := (· * ·)) (mul' := Bounded.mul t) (div := (· / ·))
      (div' := Bounded.div t) (by rintro _ _ _ _ rfl rfl; rfl) (by rintro _ _ _ _ rfl rfl; rfl) std i (o := 1) (o' := .exactly 1) rfl
      (a := x'.value) (a' := x') rfl
    rw [powiBuild_real] at this
    exact this
  sqrt := by rintro t _ _ rfl; rfl
  cbrt := by rintro t _ _ rfl; rfl
  fn := by rintro f t _ _ rfl; rfl
  into := by rintro t _ _ rfl; cases t <;> rfl
  magMul := by rintro _ _ _ _ rfl rfl; rfl
  magDiv := by rintro _ _ _ _ rfl rfl; rfl

/-! ### A platform as assumed exists -/

/-- Some float is as near to a non-negative real number as correct rounding asks. -/
theorem exists_nearest (t : FloatTy) {r : ℝ} (h0 : 0 ≤ r) (hl : r < t.large) :
    ∃ x z, t.fmt.val x = some z ∧ |(z : ℝ) - r| ≤ t.unitRoundoff * r + t.underflowUnit := by
  obtain ⟨n, hn, hmin⟩ := Finset.exists_min_image (Finset.range t.fmt.infBits) (fun n => |((t.fmt.mag n : ℚ) : ℝ) - r|)
    ⟨0, Finset.mem_range.2 (infBits_pos t)⟩
  rw [Finset.mem_range] at hn
  refine ⟨.num false n, _, fmtVal_num _ hn, ?_⟩
  simp only [Bool.false_eq_true, if_false]
  have hu := unitRoundoff_pos t
  refine le_of_forall_pos_le_add fun ε hε => ?_
  obtain ⟨q, hq1, hq2⟩ := exists_rat_btwn (show r < min t.large (r + ε / (1 + t.unitRoundoff)) from
    lt_min hl (by have := div_pos hε (show 0 < 1 + t.unitRoundoff by linarith); linarith))
  have hq0 : (0 : ℚ) ≤ q := by have : (0 : ℝ) ≤ q := by linarith
                               exact_mod_cast this
  obtain ⟨h1, h2⟩ := round_bound t hq0 (lt_of_lt_of_le hq2 (min_le_left _ _))
  have h3 := hmin _ (Finset.mem_range.2 h1)
  have h4 : (q : ℝ) - r ≤ ε / (1 + t.unitRoundoff) := by have := hq2.trans_le (min_le_right _ _); linarith
  have h5 := abs_sub_le ((t.fmt.mag (t.fmt.round q) : ℚ) : ℝ) (q : ℝ) r
  rw [abs_of_pos (show 0 < (q : ℝ) - r by linarith)] at h5
  have h6 : (1 + t.unitRoundoff) * ((q : ℝ) - r) ≤ ε := by
    rw [le_div_iff₀ (by linarith)] at h4; linarith
  refine h3.trans (h5.trans ?_)
  nlinarith

/-- Infinity is where `2^topExp` would be. -/
def topExp : FloatTy → Int
  | .f32 => 128
  | .f64 => 1024

theorem mag_inf (t : FloatTy) : t.fmt.mag t.fmt.infBits = pow2 (topExp t) := by
  cases t
  · have e : FloatTy.f32.fmt.infBits = 254 * 2 ^ (FloatTy.f32.fmt.p - 1) + 2 ^ 23 := rfl
    rw [e, mag_compose _ (fmt_p _) (show 2 ^ 23 ≤ 2 ^ 24 by norm_num) (Or.inr (show 2 ^ 23 ≤ 2 ^ 23 from le_rfl))]
    rw [show ((2 ^ 23 : Nat) : ℚ) = pow2 ((23 : Nat) : Int) by rw [pow2_nat], ← pow2_add]
    rfl
  · have e : FloatTy.f64.fmt.infBits = 2046 * 2 ^ (FloatTy.f64.fmt.p - 1) + 2 ^ 52 := rfl
    rw [e, mag_compose _ (fmt_p _) (show 2 ^ 52 ≤ 2 ^ 53 by norm_num) (Or.inr (show 2 ^ 52 ≤ 2 ^ 52 from le_rfl))]
    rw [show ((2 ^ 52 : Nat) : ℚ) = pow2 ((52 : Nat) : Int) by rw [pow2_nat], ← pow2_add]
    rfl

theorem val_lt_large {t : FloatTy} {x : Fl} {v : ℚ} (h : t.fmt.val x = some v) : |(v : ℝ)| < 2 * t.large := by
  obtain ⟨s, n, rfl, hn, rfl⟩ := fmtVal_inv h
  have habs : |if s then -t.fmt.mag n else t.fmt.mag n| = t.fmt.mag n := by
    split <;> simp [abs_of_nonneg (mag_nonneg _ n)]
  have h1 := mag_strictMono t.fmt (fmt_p t) hn
  have h2 := mag_inf t
  have h3 : |((if s then -t.fmt.mag n else t.fmt.mag n : ℚ) : ℝ)| < ((pow2 (topExp t) : ℚ) : ℝ) := by
    rw [← h2]
    rw [← habs] at h1
    exact_mod_cast h1
  rw [pow2_real] at h3
  refine h3.trans_le (le_of_eq ?_)
  cases t
  · show (2 : ℝ) ^ (128 : ℤ) = 2 * 2 ^ (127 : ℤ)
    rw [← zpow_one_add₀ (by norm_num)]; norm_num
  · show (2 : ℝ) ^ (1024 : ℤ) = 2 * 2 ^ (1023 : ℤ)
    rw [← zpow_one_add₀ (by norm_num)]; norm_num

open Classical in
/-- A platform whose `sqrt` is correctly rounded exists. -/
theorem exists_ieee (std : Bool) : ∃ P : PlatformFns, P.Ieee std := by
  let sq : FloatTy → Fl → Fl := fun t x =>
    if h : ∃ f : Fl, ∃ v z : ℚ, t.fmt.val x = some v ∧ t.fmt.val f = some z ∧ |(z : ℝ) - Real.sqrt v| ≤ t.unitRoundoff * Real.sqrt v + t.underflowUnit
    then h.choose else .nan
  refine ⟨⟨buildLib std fun _ _ => .nan, fun t x e => if std then powiCompilerRt t.fmt x e else powiNumTraits t.fmt x e, sq, fun _ x => x,
    fun _ _ x => x⟩, ⟨_, rfl⟩, fun _ _ _ => rfl, ?_⟩
  intro t x v hv h0
  have hlt : Real.sqrt v < t.large := by
    have h1 := val_lt_large hv
    have h4 : (4 : ℝ) ≤ t.large := by
      cases t
      · show (4 : ℝ) ≤ 2 ^ (127 : ℤ)
        rw [show (4 : ℝ) = 2 ^ (2 : ℤ) by norm_num]
        exact zpow_le_zpow_right₀ (by norm_num) (by norm_num)
      · show (4 : ℝ) ≤ 2 ^ (1023 : ℤ)
        rw [show (4 : ℝ) = 2 ^ (2 : ℤ) by norm_num]
        exact zpow_le_zpow_right₀ (by norm_num) (by norm_num)
    rw [abs_of_nonneg (by exact_mod_cast h0)] at h1
    rw [Real.sqrt_lt' (by linarith)]
    nlinarith
  obtain ⟨f, z, hz, he⟩ := exists_nearest t (Real.sqrt_nonneg (v : ℝ)) hlt
  have h : ∃ f : Fl, ∃ v z : ℚ, t.fmt.val x = some v ∧ t.fmt.val f = some z ∧
    |(z : ℝ) - Real.sqrt v| ≤ t.unitRoundoff * Real.sqrt v + t.underflowUnit := ⟨f, v, z, hv, hz, he⟩
  show ∃ z : ℚ, t.fmt.val (sq t x) = some z ∧ _
  simp only [sq, dif_pos h]
  obtain ⟨v', z', a, b, c⟩ := h.choose_spec
  rw [hv] at a
  cases a
  exact ⟨z', b, c⟩

end Diman
