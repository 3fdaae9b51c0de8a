import Verif.Proofs.Book
/-!
# The order of floats, and monotonicity of rounding
-/
namespace Diman

/-- Rounding is monotone. -/
theorem round_mono (f : Fmt) (hp : 1 ≤ f.p) {q q' : ℚ} (h : q ≤ q') : f.round q ≤ f.round q' := by
  rcases le_or_gt q 0 with h0 | h0
  · have : f.round q = 0 := by unfold Fmt.round; rw [if_pos h0]
    omega
  have h0' : 0 < q' := lt_of_lt_of_le h0 h
  rcases eq_or_lt_of_le h with rfl | hlt
  · exact le_refl _
  -- a format with a larger range, in which neither overflows
  obtain ⟨E, m, hr, hm, hEm, hrne, hmax⟩ := round_pos f hp h0
  obtain ⟨E', m', hr', hm', hEm', hrne', hmax'⟩ := round_pos f hp h0'
  let g : Fmt := { f with top := E + E' + m + m' + 1 }
  have hgp : 1 ≤ g.p := hp
  have hpow : 1 ≤ 2 ^ (f.p - 1) := Nat.one_le_two_pow
  have gi : g.infBits = (E + E' + m + m' + 1) * 2 ^ (f.p - 1) := rfl
  obtain ⟨F, k, hs, hk, hFk, hkrne, hkmax⟩ := round_pos g hgp h0
  obtain ⟨F', k', hs', hk', hFk', hkrne', hkmax'⟩ := round_pos g hgp h0'
  have eF : F = E := by
    have : max (log2 q - ((f.p : Int) - 1)) f.emin = f.emin + F := hkmax
    omega
  have eF' : F' = E' := by
    have : max (log2 q' - ((f.p : Int) - 1)) f.emin = f.emin + F' := hkmax'
    omega
  subst eF eF'
  have ek : k = m := by
    have : (k : Int) = rne (q * pow2 (-(f.emin + F))) := hkrne
    rw [← hrne] at this; exact_mod_cast this
  have ek' : k' = m' := by
    have : (k' : Int) = rne (q' * pow2 (-(f.emin + F'))) := hkrne'
    rw [← hrne'] at this; exact_mod_cast this
  subst ek ek'
  have b1 : F * 2 ^ (f.p - 1) + k < g.infBits := by rw [gi]; nlinarith
  have b2 : F' * 2 ^ (f.p - 1) + k' < g.infBits := by rw [gi]; nlinarith
  have hs1 : g.round q = F * 2 ^ (f.p - 1) + k := by rw [hs]; exact min_eq_left b1.le
  have hs1' : g.round q' = F' * 2 ^ (f.p - 1) + k' := by rw [hs']; exact min_eq_left b2.le
  have key : g.round q ≤ g.round q' := by
    by_contra hc
    push Not at hc
    have n1 := round_nearest g hgp h0 (by rw [hs1]; exact b1) (g.round q')
    have n2 := round_nearest g hgp h0' (by rw [hs1']; exact b2) (g.round q)
    have hmag := mag_strictMono g hgp hc
    have c1 : g.mag (g.round q) + g.mag (g.round q') ≤ 2 * q := by
      by_contra hh
      push Not at hh
      have : |g.mag (g.round q') - q| < |g.mag (g.round q) - q| := by
        rw [abs_lt, abs_of_pos (by linarith)]
        constructor <;> linarith
      linarith
    have c2 : 2 * q' ≤ g.mag (g.round q) + g.mag (g.round q') := by
      by_contra hh
      push Not at hh
      have : |g.mag (g.round q) - q'| < |g.mag (g.round q') - q'| := by
        rw [abs_sub_comm (g.mag (g.round q')) q', abs_of_pos (a := q' - g.mag (g.round q')) (by linarith), abs_lt]
        constructor <;> linarith
      linarith
    linarith
  rw [hr, hr']
  rw [hs1, hs1'] at key
  exact min_le_min_right _ key

/-- A rational rounded to a number of the format, infinity counting as the next number after the greatest. -/
def Fmt.rd (f : Fmt) (q : ℚ) : ℚ := if q < 0 then -f.mag (f.round (-q)) else f.mag (f.round q)

theorem Fmt.rd_mono {f : Fmt} (hp : 1 ≤ f.p) {q q' : ℚ} (h : q ≤ q') : f.rd q ≤ f.rd q' := by
  have hm := (mag_strictMono f hp).monotone
  unfold Fmt.rd
  split <;> split
  · exact neg_le_neg (hm (round_mono f hp (by linarith)))
  · exact le_trans (neg_nonpos.2 (mag_nonneg f _)) (mag_nonneg f _)
  · linarith
  · exact hm (round_mono f hp h)

theorem Fmt.rd_abs {f : Fmt} (hp : 1 ≤ f.p) (q : ℚ) : |f.rd q| ≤ f.mag f.infBits := by
  have hm := (mag_strictMono f hp).monotone
  unfold Fmt.rd
  split
  · rw [abs_neg, abs_of_nonneg (mag_nonneg f _)]; exact hm (round_le_inf f _)
  · rw [abs_of_nonneg (mag_nonneg f _)]; exact hm (round_le_inf f _)

theorem toRat_round (f : Fmt) {s : Bool} {a : ℚ} (ha : 0 ≤ a) : f.toRat (.num s (f.round a)) = f.rd (if s then -a else a) := by
  unfold Fmt.toRat Fmt.rd
  cases s
  · simp only [Bool.false_eq_true, if_false, not_lt.2 ha]
  · simp only [if_true]
    rcases eq_or_lt_of_le ha with rfl | h
    · simp [round_zero, mag_zero]
    · rw [if_pos (by linarith), neg_neg]

theorem toRat_abs {f : Fmt} (hp : 1 ≤ f.p) {x : Fl} (hx : f.Valid x) : |f.toRat x| ≤ f.mag f.infBits := by
  have hm := (mag_strictMono f hp).monotone
  cases x with
  | nan => simpa [Fmt.toRat] using mag_nonneg f _
  | num s n =>
    have : f.mag n ≤ f.mag f.infBits := hm hx
    cases s
    · simpa [Fmt.toRat, abs_of_nonneg (mag_nonneg f n)] using this
    · simpa [Fmt.toRat, abs_of_nonneg (mag_nonneg f n)] using this

theorem lt_toRat {f : Fmt} (hp : 1 ≤ f.p) {s t : Bool} {a b : Nat} :
    (Fl.num s a).lt (.num t b) = decide (f.toRat (.num s a) < f.toRat (.num t b)) := by
  have hm := mag_strictMono f hp
  have ha := mag_nonneg f a
  have hb := mag_nonneg f b
  have pa : 0 < a ↔ 0 < f.mag a := by rw [← mag_zero f]; exact hm.lt_iff_lt.symm
  have pb : 0 < b ↔ 0 < f.mag b := by rw [← mag_zero f]; exact hm.lt_iff_lt.symm
  cases s <;> cases t <;> simp only [Fl.lt, Fmt.toRat, Bool.false_eq_true, if_false, if_true]
  · exact decide_eq_decide.2 hm.lt_iff_lt.symm
  · symm; rw [decide_eq_false_iff_not]; linarith
  · rw [← Bool.decide_or]
    refine decide_eq_decide.2 ?_
    rw [pa, pb]
    constructor
    · rintro (h | h) <;> linarith
    · intro h
      by_contra hc
      push Not at hc
      linarith [hc.1, hc.2]
  · refine decide_eq_decide.2 ?_
    rw [neg_lt_neg_iff]; exact hm.lt_iff_lt.symm

theorem feq_toRat {f : Fmt} (hp : 1 ≤ f.p) {s t : Bool} {a b : Nat} :
    (Fl.num s a).feq (.num t b) = decide (f.toRat (.num s a) = f.toRat (.num t b)) := by
  have hm := mag_strictMono f hp
  have inj : ∀ {a b}, f.mag a = f.mag b ↔ a = b := hm.injective.eq_iff
  have ha := mag_nonneg f a
  have hb := mag_nonneg f b
  have z : ∀ {a}, a = 0 ↔ f.mag a = 0 := fun {a} => by rw [← inj, mag_zero]
  rw [eq_comm, Bool.eq_iff_iff, decide_eq_true_eq]
  cases s <;> cases t <;> simp only [Fl.feq, Fmt.toRat, Bool.false_eq_true, if_false, if_true, Bool.and_eq_true, Bool.or_eq_true, beq_iff_eq]
  · simp [inj]
  · simp only [reduceCtorEq, false_or]
    constructor
    · intro h
      have h1 : f.mag a = 0 := by linarith
      have h2 : f.mag b = 0 := by linarith
      exact ⟨(z.2 h1).trans (z.2 h2).symm, z.2 h1⟩
    · rintro ⟨rfl, rfl⟩; simp [mag_zero]
  · simp only [reduceCtorEq, false_or]
    constructor
    · intro h
      have h1 : f.mag a = 0 := by linarith
      have h2 : f.mag b = 0 := by linarith
      exact ⟨(z.2 h1).trans (z.2 h2).symm, z.2 h1⟩
    · rintro ⟨rfl, rfl⟩; simp [mag_zero]
  · simp [inj]

theorem Fmt.add_valid (f : Fmt) (x y : Fl) : f.Valid (f.add x y) := by
  cases x <;> cases y <;> simp only [Fmt.add] <;> try trivial
  split
  · split <;> simp [Fmt.Valid]
  · split
    · simp [Fmt.Valid]
    · split
      · simp [Fmt.Valid]
      · exact round_le_inf f _

theorem Fmt.mul_valid (f : Fmt) (x y : Fl) : f.Valid (f.mul x y) := by
  cases x <;> cases y <;> simp only [Fmt.mul] <;> try trivial
  split
  · split <;> simp [Fmt.Valid]
  · split
    · split <;> simp [Fmt.Valid]
    · exact round_le_inf f _

theorem Fmt.div_valid (f : Fmt) (x y : Fl) : f.Valid (f.div x y) := by
  cases x <;> cases y <;> simp only [Fmt.div] <;> try trivial
  split
  · split <;> simp [Fmt.Valid]
  · split
    · simp [Fmt.Valid]
    · split
      · split <;> simp [Fmt.Valid]
      · exact round_le_inf f _

/-- Is a float infinite? -/
def Fmt.Inf (f : Fmt) : Fl → Prop
  | .nan => False
  | .num _ n => n = f.infBits

instance (f : Fmt) (x : Fl) : Decidable (f.Inf x) := by cases x <;> unfold Fmt.Inf <;> infer_instance

theorem isInf_iff {f : Fmt} {s : Bool} {n : Nat} (h : f.Valid (.num s n)) : f.isInf n = true ↔ f.Inf (.num s n) := by
  unfold Fmt.Valid at h
  simp [Fmt.isInf, Fmt.Inf]; omega

theorem toRat_inf {f : Fmt} {x : Fl} (h : f.Inf x) : f.toRat x = f.mag f.infBits ∨ f.toRat x = -f.mag f.infBits := by
  cases x with
  | nan => exact h.elim
  | num s n =>
    have : n = f.infBits := h
    cases s
    · left; simp [Fmt.toRat, this]
    · right; simp [Fmt.toRat, this]

theorem inf_of_toRat {f : Fmt} (hp : 1 ≤ f.p) (h0 : 0 < f.infBits) {x : Fl} (hx : x ≠ .nan)
    (h : f.toRat x = f.mag f.infBits ∨ f.toRat x = -f.mag f.infBits) : f.Inf x := by
  have hm := mag_strictMono f hp
  cases x with
  | nan => exact (hx rfl).elim
  | num s n =>
    have hpos := mag_pos f h0
    have hn := mag_nonneg f n
    show n = f.infBits
    apply hm.injective
    cases s <;> simp only [Fmt.toRat, Bool.false_eq_true, if_false, if_true] at h <;> rcases h with h | h <;> linarith

/-- The value of a sum. -/
theorem Fmt.toRat_add {f : Fmt} {x y : Fl} (hx : f.Valid x) (hy : f.Valid y) (h : f.add x y ≠ .nan) :
    (f.Inf x ∧ f.toRat (f.add x y) = f.toRat x) ∨ (¬ f.Inf x ∧ f.Inf y ∧ f.toRat (f.add x y) = f.toRat y) ∨
    (¬ f.Inf x ∧ ¬ f.Inf y ∧ f.toRat (f.add x y) = f.rd (f.toRat x + f.toRat y)) := by
  cases x with
  | nan => exact (h rfl).elim
  | num s a =>
    cases y with
    | nan => exact (h rfl).elim
    | num t b =>
      simp only [Fmt.add] at h ⊢
      by_cases ia : f.isInf a = true
      · left
        refine ⟨(isInf_iff hx).1 ia, ?_⟩
        have ea : a = f.infBits := (isInf_iff hx).1 ia
        simp only [ia, if_true] at h ⊢
        split
        · rename_i hc; rw [if_pos hc] at h; exact (h rfl).elim
        · simp [Fmt.toRat, ea]
      · right
        have na : ¬ f.Inf (.num s a) := fun e => ia ((isInf_iff hx).2 e)
        by_cases ib : f.isInf b = true
        · left
          refine ⟨na, (isInf_iff hy).1 ib, ?_⟩
          have eb : b = f.infBits := (isInf_iff hy).1 ib
          simp only [ia, ib, if_true, Bool.false_eq_true, if_false]
          simp [Fmt.toRat, eb]
        · right
          refine ⟨na, fun e => ib ((isInf_iff hy).2 e), ?_⟩
          simp only [ia, ib, if_false, Bool.false_eq_true]
          generalize f.toRat (.num s a) + f.toRat (.num t b) = q
          split
          · rename_i hq; rw [hq]; cases s <;> cases t <;> simp [Fmt.toRat, Fmt.rd, round_zero, mag_zero]
          · rw [toRat_round f (abs_nonneg q)]
            congr 1
            by_cases hq : q < 0
            · simp [hq, abs_of_neg hq]
            · simp [hq, abs_of_nonneg (not_lt.1 hq)]

theorem sign_mul (s t : Bool) (a b : ℚ) : (if s then -a else a) * (if t then -b else b) = if (s != t) then -(a * b) else a * b := by
  cases s <;> cases t <;> simp
theorem sign_div (s t : Bool) (a b : ℚ) : (if s then -a else a) / (if t then -b else b) = if (s != t) then -(a / b) else a / b := by
  cases s <;> cases t <;> simp [neg_div, div_neg]

/-- The value of a product of finite numbers. -/
theorem Fmt.toRat_mul {f : Fmt} {x y : Fl} (hx : f.Valid x) (hy : f.Valid y) (nx : x ≠ .nan) (ny : y ≠ .nan) (ix : ¬ f.Inf x) (iy : ¬ f.Inf y) :
    f.mul x y ≠ .nan ∧ f.toRat (f.mul x y) = f.rd (f.toRat x * f.toRat y) := by
  cases x with
  | nan => exact (nx rfl).elim
  | num s a =>
    cases y with
    | nan => exact (ny rfl).elim
    | num t b =>
      have ia : f.isInf a = false := by rw [← Bool.not_eq_true, isInf_iff hx]; exact ix
      have ib : f.isInf b = false := by rw [← Bool.not_eq_true, isInf_iff hy]; exact iy
      simp only [Fmt.mul, ia, ib, Bool.false_eq_true, if_false]
      refine ⟨by simp, ?_⟩
      rw [toRat_round f (mul_nonneg (mag_nonneg f _) (mag_nonneg f _))]
      simp only [Fmt.toRat, sign_mul]

/-- The value of a quotient of finite numbers. -/
theorem Fmt.toRat_div {f : Fmt} {x y : Fl} (hx : f.Valid x) (hy : f.Valid y) (nx : x ≠ .nan) (ny : y ≠ .nan) (ix : ¬ f.Inf x) (iy : ¬ f.Inf y)
    (h0 : f.toRat y ≠ 0) : f.div x y ≠ .nan ∧ f.toRat (f.div x y) = f.rd (f.toRat x / f.toRat y) := by
  cases x with
  | nan => exact (nx rfl).elim
  | num s a =>
    cases y with
    | nan => exact (ny rfl).elim
    | num t b =>
      have ia : f.isInf a = false := by rw [← Bool.not_eq_true, isInf_iff hx]; exact ix
      have ib : f.isInf b = false := by rw [← Bool.not_eq_true, isInf_iff hy]; exact iy
      have hb : b ≠ 0 := by rintro rfl; apply h0; cases t <;> simp [Fmt.toRat, mag_zero]
      simp only [Fmt.div, ia, ib, Bool.false_eq_true, if_false, hb]
      refine ⟨by simp, ?_⟩
      rw [toRat_round f (div_nonneg (mag_nonneg f _) (mag_nonneg f _))]
      simp only [Fmt.toRat, sign_div]

end Diman
