import Verif.Proofs.ApiRel
import Verif.Proofs.Estimate
import Verif.Proofs.NoStd
/-! Floats keep what the books of `Spec/ErrorBook` say. -/
namespace Diman

theorem fmtVal_num (f : Fmt) {s : Bool} {n : Nat} (h : n < f.infBits) : f.val (.num s n) = some (if s then -f.mag n else f.mag n) := by
  simp [Fmt.val, not_le.2 h]

theorem fmtVal_inv {f : Fmt} {x : Fl} {v : ℚ} (h : f.val x = some v) :
    ∃ s n, x = .num s n ∧ n < f.infBits ∧ v = if s then -f.mag n else f.mag n := by
  cases x with
  | nan => cases h
  | num s n =>
    simp only [Fmt.val] at h
    split at h
    · cases h
    · rename_i hn
      exact ⟨s, n, rfl, not_le.1 hn, by injection h with h; exact h.symm⟩

theorem pow2_real (e : Int) : ((pow2 e : ℚ) : ℝ) = 2 ^ e := by rw [pow2_eq]; push_cast; rfl

theorem unitRoundoff_eq (t : FloatTy) : t.unitRoundoff = ((pow2 (-(t.fmt.p : Int)) : ℚ) : ℝ) := by cases t <;> rw [pow2_real] <;> rfl
theorem underflowUnit_eq (t : FloatTy) : t.underflowUnit = ((pow2 (t.fmt.emin - 1) : ℚ) : ℝ) := by cases t <;> rw [pow2_real] <;> rfl
theorem unitRoundoff_pos (t : FloatTy) : 0 < t.unitRoundoff := by cases t <;> simp only [FloatTy.unitRoundoff] <;> positivity
theorem underflowUnit_pos (t : FloatTy) : 0 < t.underflowUnit := by cases t <;> simp only [FloatTy.underflowUnit] <;> positivity
theorem fmt_p (t : FloatTy) : 1 ≤ t.fmt.p := by cases t <;> decide

theorem infBits_pos (t : FloatTy) : 0 < t.fmt.infBits := by
  have h32 : f32Fmt.infBits = 255 * 2 ^ 23 := rfl
  have h64 : f64Fmt.infBits = 2047 * 2 ^ 52 := rfl
  cases t
  · show 0 < f32Fmt.infBits; rw [h32]; positivity
  · show 0 < f64Fmt.infBits; rw [h64]; positivity

/-- Rounding, below the overflow threshold: the result is finite, and off by half a unit in the last place or half the smallest number. -/
theorem round_bound (t : FloatTy) {q : ℚ} (h0 : 0 ≤ q) (hl : (q : ℝ) < t.large) :
    t.fmt.round q < t.fmt.infBits ∧ |((t.fmt.mag (t.fmt.round q) : ℚ) : ℝ) - q| ≤ t.unitRoundoff * q + t.underflowUnit := by
  rcases eq_or_lt_of_le h0 with rfl | hq
  · rw [round_zero, mag_zero]
    refine ⟨infBits_pos t, ?_⟩
    simpa using (underflowUnit_pos t).le
  obtain ⟨E, m, hr, hm, hEm, hrne, hmax⟩ := round_pos t.fmt (fmt_p t) hq
  obtain ⟨l1, l2⟩ := log2_spec hq
  have hlt : t.fmt.round q < t.fmt.infBits := by
    rw [hr]
    have hL : q < pow2 (match t with | .f32 => 127 | .f64 => 1023) := by
      have : (q : ℝ) < ((pow2 (match t with | .f32 => 127 | .f64 => 1023) : ℚ) : ℝ) := by
        rw [pow2_real]; cases t <;> exact hl
      exact_mod_cast this
    have := pow2_lt.1 (lt_of_le_of_lt l1 hL)
    cases t
    · have ep : FloatTy.f32.fmt.p = 24 := rfl
      have ee : FloatTy.f32.fmt.emin = -149 := rfl
      have ei : FloatTy.f32.fmt.infBits = 255 * 2 ^ 23 := rfl
      rw [ep] at hm hmax
      rw [ee] at hmax
      rw [ep, ei]
      simp only at this
      norm_num at hm hmax ⊢
      omega
    · have ep : FloatTy.f64.fmt.p = 53 := rfl
      have ee : FloatTy.f64.fmt.emin = -1074 := rfl
      have ei : FloatTy.f64.fmt.infBits = 2047 * 2 ^ 52 := rfl
      rw [ep] at hm hmax
      rw [ee] at hmax
      rw [ep, ei]
      simp only at this
      norm_num at hm hmax ⊢
      omega
  refine ⟨hlt, ?_⟩
  have hr' : t.fmt.round q = E * 2 ^ (t.fmt.p - 1) + m := by omega
  rw [hr', mag_compose t.fmt (fmt_p t) hm hEm, unitRoundoff_eq, underflowUnit_eq]
  have herr := rne_err (q * pow2 (-(t.fmt.emin + E)))
  rw [← hrne] at herr
  have e1 : (m : ℚ) * pow2 (t.fmt.emin + E) - q
      = (((m : Int) : ℚ) - q * pow2 (-(t.fmt.emin + E))) * pow2 (t.fmt.emin + E) := by
    rw [sub_mul, mul_assoc q, mul_comm (pow2 (-(t.fmt.emin + E))), pow2_neg_mul]; simp
  have e2 : |(m : ℚ) * pow2 (t.fmt.emin + E) - q| ≤ 1 / 2 * pow2 (t.fmt.emin + E) := by
    rw [e1, abs_mul, abs_of_pos (pow2_pos _)]
    exact mul_le_mul_of_nonneg_right herr (pow2_pos _).le
  have half : ∀ e : Int, (1 / 2 : ℚ) * pow2 e = pow2 (e - 1) := by
    intro e
    rw [show (1 / 2 : ℚ) = pow2 (-1) by simp [pow2_eq], ← pow2_add]; congr 1; ring
  have e3 : |(m : ℚ) * pow2 (t.fmt.emin + E) - q| ≤ pow2 (-(t.fmt.p : Int)) * q + pow2 (t.fmt.emin - 1) := by
    refine e2.trans ?_
    rcases Nat.eq_zero_or_pos E with rfl | hE
    · rw [half]
      have := mul_pos (pow2_pos (-(t.fmt.p : Int))) hq
      simp only [Nat.cast_zero, add_zero]
      linarith
    · rw [half, show t.fmt.emin + (E : Int) - 1 = -(t.fmt.p : Int) + log2 q by omega, pow2_add]
      have := mul_le_mul_of_nonneg_left l1 (pow2_pos (-(t.fmt.p : Int))).le
      have := pow2_pos (t.fmt.emin - 1)
      linarith
  exact_mod_cast e3

/-- A correctly rounded result, of an exact value close to `q`. -/
theorem book_round {t : FloatTy} {s : Bool} {a : ℚ} (ha : 0 ≤ a) {q δ : ℝ} (h : |(if s then -(a : ℝ) else (a : ℝ)) - q| ≤ δ) (hl : |q| + δ < t.large) :
    ∃ v : ℚ, t.fmt.val (.num s (t.fmt.round a)) = some v ∧ |(v : ℝ) - q| ≤ δ + (t.unitRoundoff * (|q| + δ) + t.underflowUnit) := by
  have habs : |(if s then -(a : ℝ) else (a : ℝ))| = a := by
    have : (0 : ℝ) ≤ a := by exact_mod_cast ha
    split <;> simp [abs_of_nonneg this]
  have hle : (a : ℝ) ≤ |q| + δ := by
    rw [← habs]
    have := abs_sub_abs_le_abs_sub (if s then -(a : ℝ) else (a : ℝ)) q
    linarith
  obtain ⟨h1, h2⟩ := round_bound t ha (lt_of_le_of_lt hle hl)
  refine ⟨_, fmtVal_num _ h1, ?_⟩
  have e : ((if s then -t.fmt.mag (t.fmt.round a) else t.fmt.mag (t.fmt.round a) : ℚ) : ℝ) - (if s then -(a : ℝ) else (a : ℝ))
      = if s then -(((t.fmt.mag (t.fmt.round a) : ℚ) : ℝ) - a) else ((t.fmt.mag (t.fmt.round a) : ℚ) : ℝ) - a := by
    split <;> push_cast <;> ring
  have h3 : |((if s then -t.fmt.mag (t.fmt.round a) else t.fmt.mag (t.fmt.round a) : ℚ) : ℝ) - (if s then -(a : ℝ) else (a : ℝ))|
      ≤ t.unitRoundoff * a + t.underflowUnit := by
    rw [e]; split
    · rw [abs_neg]; exact h2
    · exact h2
  have h4 := mul_le_mul_of_nonneg_left hle (unitRoundoff_pos t).le
  have h5 := abs_sub_le ((if s then -t.fmt.mag (t.fmt.round a) else t.fmt.mag (t.fmt.round a) : ℚ) : ℝ) (if s then -(a : ℝ) else (a : ℝ)) q
  linarith

/-! ### Order -/

theorem mag_succ (f : Fmt) (hp : 1 ≤ f.p) (n : Nat) : f.mag n < f.mag (n + 1) := by
  obtain ⟨E, m, hn, hm, hE⟩ := bits_decompose f hp n
  rw [hn, Nat.add_assoc, mag_compose f hp hm.le hE, mag_compose f hp (m := m + 1) (by omega) (hE.imp_right fun h => by omega)]
  refine mul_lt_mul_of_pos_right ?_ (pow2_pos _)
  push_cast; linarith

theorem mag_strictMono (f : Fmt) (hp : 1 ≤ f.p) : StrictMono f.mag := strictMono_nat_of_lt_succ (mag_succ f hp)

theorem lt_val {f : Fmt} (hp : 1 ≤ f.p) {x y : Fl} {v w : ℚ} (hx : f.val x = some v) (hy : f.val y = some w) : x.lt y = decide (v < w) := by
  obtain ⟨s, a, rfl, -, rfl⟩ := fmtVal_inv hx
  obtain ⟨t, b, rfl, -, rfl⟩ := fmtVal_inv hy
  have hm := mag_strictMono f hp
  have ha := mag_nonneg f a
  have hb := mag_nonneg f b
  have pa : 0 < a ↔ 0 < f.mag a := by rw [← mag_zero f]; exact hm.lt_iff_lt.symm
  have pb : 0 < b ↔ 0 < f.mag b := by rw [← mag_zero f]; exact hm.lt_iff_lt.symm
  cases s <;> cases t <;> simp only [Fl.lt, Bool.false_eq_true, if_false, if_true]
  · exact decide_eq_decide.2 hm.lt_iff_lt.symm
  · symm; rw [decide_eq_false_iff_not]; linarith
  · rw [← Bool.decide_or]
    refine decide_eq_decide.2 ?_
    rw [pa, pb]
    constructor
    · rintro (h | h) <;> linarith
    · intro h
      by_contra hc
      push Not at hc
      linarith [hc.1, hc.2]
  · refine decide_eq_decide.2 ?_
    rw [neg_lt_neg_iff]; exact hm.lt_iff_lt.symm

theorem feq_val {f : Fmt} (hp : 1 ≤ f.p) {x y : Fl} {v : ℚ} (hx : f.val x = some v) (hy : f.val y = some v) : x.feq y = true := by
  obtain ⟨s, a, rfl, -, e⟩ := fmtVal_inv hx
  obtain ⟨t, b, rfl, -, e'⟩ := fmtVal_inv hy
  subst e
  have hm := mag_strictMono f hp
  have ha := mag_nonneg f a
  have hb := mag_nonneg f b
  have inj : ∀ {a b}, f.mag a = f.mag b → a = b := fun h => hm.injective h
  have hz : ∀ {a}, f.mag a = 0 → a = 0 := fun h => inj (h.trans (mag_zero f).symm)
  cases s <;> cases t <;> simp only [Bool.false_eq_true, if_false, if_true] at e'
  · simp [Fl.feq, inj e']
  · have h1 : a = 0 := hz (by linarith)
    have h2 : b = 0 := hz (by linarith)
    simp [Fl.feq, h1, h2]
  · have h1 : a = 0 := hz (by linarith)
    have h2 : b = 0 := hz (by linarith)
    simp [Fl.feq, h1, h2]
  · simp [Fl.feq, inj (neg_injective e')]

theorem val_not_nan {f : Fmt} {x : Fl} {v : ℚ} (hx : f.val x = some v) : x.isNan = false := by
  obtain ⟨s, a, rfl, -, -⟩ := fmtVal_inv hx; rfl

theorem min_val {f : Fmt} (hp : 1 ≤ f.p) {x y : Fl} {v w : ℚ} (hx : f.val x = some v) (hy : f.val y = some w) :
    f.val (x.min y) = some (min v w) := by
  unfold Fl.min
  rw [val_not_nan hx, val_not_nan hy, lt_val hp hy hx]
  simp only [Bool.false_eq_true, if_false, decide_eq_true_eq]
  split
  · rw [hy, min_eq_right (by linarith)]
  · rw [hx, min_eq_left (by linarith)]

theorem max_val {f : Fmt} (hp : 1 ≤ f.p) {x y : Fl} {v w : ℚ} (hx : f.val x = some v) (hy : f.val y = some w) :
    f.val (x.max y) = some (max v w) := by
  unfold Fl.max
  rw [val_not_nan hx, val_not_nan hy, lt_val hp hx hy]
  simp only [Bool.false_eq_true, if_false, decide_eq_true_eq]
  split
  · rw [hy, max_eq_right (by linarith)]
  · rw [hx, max_eq_left (by linarith)]

theorem neg_val {f : Fmt} {x : Fl} {v : ℚ} (hx : f.val x = some v) : f.val x.neg = some (-v) := by
  obtain ⟨s, a, rfl, ha, rfl⟩ := fmtVal_inv hx
  show f.val (.num (!s) a) = _
  rw [fmtVal_num f ha]
  cases s <;> simp

theorem abs_val {f : Fmt} {x : Fl} {v : ℚ} (hx : f.val x = some v) : f.val x.abs = some |v| := by
  obtain ⟨s, a, rfl, ha, rfl⟩ := fmtVal_inv hx
  show f.val (.num false a) = _
  rw [fmtVal_num f ha]
  cases s <;> simp [abs_of_nonneg (mag_nonneg f a)]

theorem clamp_val {f : Fmt} (hp : 1 ≤ f.p) {a b : Fl} {v w : ℚ} (ha : f.val a = some v) (hb : f.val b = some w) (h : v ≤ w) (x : Fl) :
    ∃ y, x.clamp a b = some y ∧ ∀ u, f.val x = some u → f.val y = some (max v (min u w)) := by
  have hc : (a.lt b || a.feq b) = true := by
    rcases lt_or_eq_of_le h with h | rfl
    · rw [lt_val hp ha hb]; simp [h]
    · rw [feq_val hp ha hb]; simp
  refine ⟨_, by rw [Fl.clamp, if_pos hc], ?_⟩
  intro u hx
  rw [lt_val hp hx ha, lt_val hp hb hx]
  simp only [decide_eq_true_eq]
  split
  · rw [ha, min_eq_left (by linarith), max_eq_left (by linarith)]
  · split
    · rw [hb, min_eq_right (by linarith), max_eq_right h]
    · rw [hx, min_eq_left (by linarith), max_eq_right (by linarith)]

/-! ### Operations -/

section
variable {t : FloatTy} {x y : Fl} {a b : Bounded}

theorem book_mul (hx : Bounded.Holds t x a) (hy : Bounded.Holds t y b) : Bounded.Holds t (t.fmt.mul x y) (Bounded.mul t a b) := by
  rintro ⟨⟨oa, ob⟩, hl⟩
  obtain ⟨v, hv, ev⟩ := hx oa
  obtain ⟨w, hw, ew⟩ := hy ob
  obtain ⟨s, m, rfl, hm, rfl⟩ := fmtVal_inv hv
  obtain ⟨r, n, rfl, hn, rfl⟩ := fmtVal_inv hw
  rw [mul_num _ hm hn]
  refine book_round (mul_nonneg (mag_nonneg _ _) (mag_nonneg _ _)) ?_ hl
  have e : (if s != r then -((t.fmt.mag m * t.fmt.mag n : ℚ) : ℝ) else ((t.fmt.mag m * t.fmt.mag n : ℚ) : ℝ))
      = ((if s then -t.fmt.mag m else t.fmt.mag m : ℚ) : ℝ) * ((if r then -t.fmt.mag n else t.fmt.mag n : ℚ) : ℝ) := by
    cases s <;> cases r <;> simp
  rw [e]
  generalize ((if s then -t.fmt.mag m else t.fmt.mag m : ℚ) : ℝ) = p at *
  generalize ((if r then -t.fmt.mag n else t.fmt.mag n : ℚ) : ℝ) = q at *
  have e2 : p * q - a.value * b.value = a.value * (q - b.value) + b.value * (p - a.value) + (p - a.value) * (q - b.value) := by ring
  show |p * q - a.value * b.value| ≤ _
  rw [e2]
  have h1 := mul_le_mul_of_nonneg_left ew (abs_nonneg a.value)
  have h2 := mul_le_mul_of_nonneg_left ev (abs_nonneg b.value)
  have h3 := mul_le_mul ev ew (abs_nonneg _) ((abs_nonneg _).trans ev)
  calc _ ≤ |a.value * (q - b.value)| + |b.value * (p - a.value)| + |(p - a.value) * (q - b.value)| := abs_add_three _ _ _
    _ ≤ _ := by rw [abs_mul, abs_mul, abs_mul]; linarith

theorem book_div (hx : Bounded.Holds t x a) (hy : Bounded.Holds t y b) : Bounded.Holds t (t.fmt.div x y) (Bounded.div t a b) := by
  rintro ⟨⟨oa, ob, hlt⟩, hl⟩
  obtain ⟨v, hv, ev⟩ := hx oa
  obtain ⟨w, hw, ew⟩ := hy ob
  obtain ⟨s, m, rfl, hm, rfl⟩ := fmtVal_inv hv
  obtain ⟨r, n, rfl, hn, rfl⟩ := fmtVal_inv hw
  have hge : |b.value| - b.err ≤ |((if r then -t.fmt.mag n else t.fmt.mag n : ℚ) : ℝ)| := by
    have := abs_sub_abs_le_abs_sub b.value ((if r then -t.fmt.mag n else t.fmt.mag n : ℚ) : ℝ)
    rw [abs_sub_comm] at this
    linarith
  have hn0 : n ≠ 0 := by
    rintro rfl
    rw [mag_zero] at hge
    simp at hge
    linarith
  rw [div_num _ hm hn hn0]
  refine book_round (div_nonneg (mag_nonneg _ _) (mag_nonneg _ _)) ?_ hl
  have e : (if s != r then -((t.fmt.mag m / t.fmt.mag n : ℚ) : ℝ) else ((t.fmt.mag m / t.fmt.mag n : ℚ) : ℝ))
      = ((if s then -t.fmt.mag m else t.fmt.mag m : ℚ) : ℝ) / ((if r then -t.fmt.mag n else t.fmt.mag n : ℚ) : ℝ) := by
    cases s <;> cases r <;> simp [neg_div, div_neg]
  rw [e]
  generalize ((if s then -t.fmt.mag m else t.fmt.mag m : ℚ) : ℝ) = p at *
  generalize ((if r then -t.fmt.mag n else t.fmt.mag n : ℚ) : ℝ) = q at *
  have hb0 : 0 < |b.value| - b.err := by linarith
  have hq : 0 < |q| := by linarith
  have hb : 0 < |b.value| := by have := (abs_nonneg _).trans ew; linarith
  have e2 : p / q - a.value / b.value = (b.value * (p - a.value) - a.value * (q - b.value)) / (b.value * q) := by
    field_simp [abs_pos.1 hq, abs_pos.1 hb]
    ring
  show |p / q - a.value / b.value| ≤ _
  rw [e2, abs_div, abs_mul]
  have h1 := mul_le_mul_of_nonneg_left ew (abs_nonneg a.value)
  have h2 := mul_le_mul_of_nonneg_left ev (abs_nonneg b.value)
  have h3 : |b.value * (p - a.value) - a.value * (q - b.value)| ≤ |a.value| * b.err + |b.value| * a.err := by
    refine (abs_sub _ _).trans ?_
    rw [abs_mul, abs_mul]; linarith
  exact div_le_div₀ ((abs_nonneg _).trans h3) h3 (mul_pos hb hb0) (mul_le_mul_of_nonneg_left hge hb.le)

theorem book_addV (hx : Bounded.Holds t x a) (hy : Bounded.Holds t y b) : Bounded.Holds t (t.fmt.add x y) (Bounded.add t a b) := by
  rintro ⟨⟨oa, ob⟩, hl⟩
  obtain ⟨v, hv, ev⟩ := hx oa
  obtain ⟨w, hw, ew⟩ := hy ob
  obtain ⟨s, m, rfl, hm, e1⟩ := fmtVal_inv hv
  obtain ⟨r, n, rfl, hn, e2⟩ := fmtVal_inv hw
  have key : |((v + w : ℚ) : ℝ) - (a.value + b.value)| ≤ a.err + b.err := by
    push_cast
    rw [show (v : ℝ) + w - (a.value + b.value) = ((v : ℝ) - a.value) + ((w : ℝ) - b.value) by ring]
    exact (abs_add_le _ _).trans (add_le_add ev ew)
  have hadd : t.fmt.add (.num s m) (.num r n) = if v + w = 0 then .num (s && r) 0 else .num (decide (v + w < 0)) (t.fmt.round |v + w|) := by
    simp [Fmt.add, Fmt.isInf, not_le.2 hm, not_le.2 hn, Fmt.toRat, ← e1, ← e2]
  rw [hadd]
  have hz : ∀ z : ℚ, (if decide (z < 0) then -((|z| : ℚ) : ℝ) else ((|z| : ℚ) : ℝ)) = z := by
    intro z
    simp only [decide_eq_true_eq]
    split
    · rename_i h; rw [abs_of_neg h]; push_cast; ring
    · rename_i h; rw [abs_of_nonneg (not_lt.1 h)]
  split
  · rename_i h0
    rw [h0] at key
    have := book_round (t := t) (s := s && r) (le_refl (0 : ℚ)) (q := a.value + b.value) (δ := a.err + b.err) (by simpa using key) hl
    rwa [round_zero] at this
  · exact book_round (abs_nonneg _) (by rw [hz]; exact key) hl

theorem book_neg (hx : Bounded.Holds t x a) : Bounded.Holds t x.neg ⟨-a.value, a.err, a.ok⟩ := by
  intro oa
  obtain ⟨v, hv, ev⟩ := hx oa
  refine ⟨-v, neg_val hv, ?_⟩
  show |((-v : ℚ) : ℝ) - -a.value| ≤ a.err
  push_cast
  rw [show -(v : ℝ) - -a.value = -((v : ℝ) - a.value) by ring, abs_neg]; exact ev

theorem book_subV (hx : Bounded.Holds t x a) (hy : Bounded.Holds t y b) : Bounded.Holds t (t.fmt.add x y.neg) (Bounded.sub t a b) := by
  have := book_addV hx (book_neg hy)
  simpa only [Bounded.add, Bounded.sub, sub_eq_add_neg] using this

theorem book_abs (hx : Bounded.Holds t x a) : Bounded.Holds t x.abs ⟨|a.value|, a.err, a.ok⟩ := by
  intro oa
  obtain ⟨v, hv, ev⟩ := hx oa
  refine ⟨|v|, abs_val hv, ?_⟩
  show abs (((|v| : ℚ) : ℝ) - |a.value|) ≤ a.err
  push_cast
  exact (abs_abs_sub_abs_le _ _).trans ev

theorem book_min (hx : Bounded.Holds t x a) (hy : Bounded.Holds t y b) :
    Bounded.Holds t (x.min y) ⟨min a.value b.value, max a.err b.err, a.ok ∧ b.ok⟩ := by
  rintro ⟨oa, ob⟩
  obtain ⟨v, hv, ev⟩ := hx oa
  obtain ⟨w, hw, ew⟩ := hy ob
  refine ⟨_, min_val (fmt_p t) hv hw, ?_⟩
  show |((min v w : ℚ) : ℝ) - min a.value b.value| ≤ max a.err b.err
  push_cast
  exact (abs_min_sub_min_le_max _ _ _ _).trans (max_le_max ev ew)

theorem book_max (hx : Bounded.Holds t x a) (hy : Bounded.Holds t y b) :
    Bounded.Holds t (x.max y) ⟨max a.value b.value, max a.err b.err, a.ok ∧ b.ok⟩ := by
  rintro ⟨oa, ob⟩
  obtain ⟨v, hv, ev⟩ := hx oa
  obtain ⟨w, hw, ew⟩ := hy ob
  refine ⟨_, max_val (fmt_p t) hv hw, ?_⟩
  show |((max v w : ℚ) : ℝ) - max a.value b.value| ≤ max a.err b.err
  push_cast
  exact (abs_max_sub_max_le_max _ _ _ _).trans (max_le_max ev ew)

theorem book_zero (t : FloatTy) : Bounded.Holds t (t.fmt.ofInt 0) (.exactly 0) := by
  intro _
  refine ⟨0, ?_, by simp [Bounded.exactly]⟩
  show t.fmt.val (.num _ (t.fmt.round _)) = _
  simp only [Int.natAbs_zero, Nat.cast_zero, round_zero]
  rw [fmtVal_num _ (infBits_pos t), mag_zero]
  simp

theorem book_one (t : FloatTy) : Bounded.Holds t (t.fmt.ofInt 1) (.exactly 1) := by
  intro _
  refine ⟨1, ?_, by simp [Bounded.exactly]⟩
  cases t <;> decide +kernel

theorem Bounded.Holds.only {t₀ : FloatTy} (h : t = t₀ → Bounded.Holds t₀ x a) : Bounded.Holds t₀ x (a.only t₀ t) :=
  fun o => h o.2 o.1

theorem book_sqrt {sq : Fl → Fl} (hs : ∀ (x : Fl) (v : ℚ), t.fmt.val x = some v → 0 ≤ v → ∃ z : ℚ, t.fmt.val (sq x) = some z ∧
      |(z : ℝ) - Real.sqrt v| ≤ t.unitRoundoff * Real.sqrt v + t.underflowUnit)
    (hx : Bounded.Holds t x a) : Bounded.Holds t (sq x) (Bounded.sqrt t a) := by
  rintro ⟨⟨oa, hle⟩, hl⟩
  obtain ⟨v, hv, ev⟩ := hx oa
  have he : 0 ≤ a.err := (abs_nonneg _).trans ev
  have hv0 : (0 : ℝ) ≤ v := by have := (abs_le.1 ev).1; linarith
  obtain ⟨z, hz, ez⟩ := hs x v hv (by exact_mod_cast hv0)
  refine ⟨z, hz, ?_⟩
  have hd : |Real.sqrt v - Real.sqrt a.value| ≤ a.err / Real.sqrt a.value := by
    rcases eq_or_lt_of_le (he.trans hle) with h0 | h0
    · have : a.err = 0 := by linarith
      rw [this, ← h0] at ev
      have : (v : ℝ) = 0 := by simpa using ev
      rw [this, ← h0]; simp
    · have hs0 := Real.sqrt_pos.2 h0
      rw [le_div_iff₀ hs0]
      have e1 : |Real.sqrt v - Real.sqrt a.value| * (Real.sqrt v + Real.sqrt a.value) = |(v : ℝ) - a.value| := by
        rw [← abs_of_nonneg (add_nonneg (Real.sqrt_nonneg (v : ℝ)) hs0.le), ← abs_mul]
        congr 1
        have := Real.mul_self_sqrt hv0
        have := Real.mul_self_sqrt h0.le
        nlinarith
      have h1 : |Real.sqrt v - Real.sqrt a.value| * Real.sqrt a.value ≤ |Real.sqrt v - Real.sqrt a.value| * (Real.sqrt v + Real.sqrt a.value) :=
        mul_le_mul_of_nonneg_left (by linarith [Real.sqrt_nonneg (v : ℝ)]) (abs_nonneg _)
      linarith
  show |(z : ℝ) - Real.sqrt a.value| ≤ a.err / Real.sqrt a.value + (t.unitRoundoff * (|Real.sqrt a.value| + a.err / Real.sqrt a.value) + t.underflowUnit)
  rw [abs_of_nonneg (Real.sqrt_nonneg a.value)]
  have h2 : Real.sqrt v ≤ Real.sqrt a.value + a.err / Real.sqrt a.value := by have := (abs_le.1 hd).2; linarith
  have h3 := mul_le_mul_of_nonneg_left h2 (unitRoundoff_pos t).le
  have h4 := abs_sub_le (z : ℝ) (Real.sqrt v) (Real.sqrt a.value)
  linarith
end

/-! ### Powers -/

section
variable {K K' : Type} {R : K → K' → Prop} {mul div : K → K → K} {mul' div' : K' → K' → K'}
  (hm : ∀ {x x' y y'}, R x x' → R y y' → R (mul x y) (mul' x' y')) (hd : ∀ {x x' y y'}, R x x' → R y y' → R (div x y) (div' x' y'))
include hm

theorem squareMultiply_rel (b : Nat) {r r' a a'} (hr : R r r') (ha : R a a') : R (squareMultiply mul r a b) (squareMultiply mul' r' a' b) := by
  induction b using Nat.strongRecOn generalizing r r' a a' with
  | _ b ih =>
    rw [squareMultiply, squareMultiply.eq_def mul']
    by_cases h : b = 0
    · simpa only [dif_pos h] using hr
    · simp only [dif_neg h]
      have h1 : R (if b % 2 = 1 then mul r a else r) (if b % 2 = 1 then mul' r' a' else r') := by
        split
        · exact hm hr ha
        · exact hr
      by_cases h2 : b / 2 = 0
      · simpa only [if_pos h2] using h1
      · simp only [if_neg h2]
        exact ih _ (by omega) h1 (hm ha ha)

theorem squareSkip_rel (b : Nat) {a a'} (ha : R a a') :
    R (squareSkip mul a b).1 (squareSkip mul' a' b).1 ∧ (squareSkip mul a b).2 = (squareSkip mul' a' b).2 := by
  induction b using Nat.strongRecOn generalizing a a' with
  | _ b ih =>
    rw [squareSkip, squareSkip.eq_def mul']
    by_cases h : b = 0 ∨ b % 2 = 1
    · simp only [dif_pos h]; exact ⟨ha, trivial⟩
    · simp only [dif_neg h]
      exact ih _ (by omega) (hm ha ha)

theorem squareAcc_rel (b : Nat) {r r' a a'} (hr : R r r') (ha : R a a') : R (squareAcc mul r a b) (squareAcc mul' r' a' b) := by
  induction b using Nat.strongRecOn generalizing r r' a a' with
  | _ b ih =>
    rw [squareAcc, squareAcc.eq_def mul']
    by_cases h : b ≤ 1
    · simpa only [dif_pos h] using hr
    · simp only [dif_neg h]
      refine ih _ (by omega) ?_ (hm ha ha)
      split
      · exact hm hr (hm ha ha)
      · exact hr

theorem powNoStd_rel (b : Nat) {o o' a a'} (ho : R o o') (ha : R a a') : R (powNoStd mul o a b) (powNoStd mul' o' a' b) := by
  unfold powNoStd
  obtain ⟨h1, h2⟩ := squareSkip_rel hm b ha
  rw [h2]
  split
  · exact ho
  · split
    · exact h1
    · exact squareAcc_rel hm _ h1 h1

include hd in
theorem powiBuild_rel (std : Bool) (b : Int) {o o' a a'} (ho : R o o') (ha : R a a') :
    R (powiBuild mul std div o a b) (powiBuild mul' std div' o' a' b) := by
  unfold powiBuild
  cases std
  · simp only [Bool.false_eq_true, if_false, powiNoStd]
    split
    · exact powNoStd_rel hm _ ho (hd ho ha)
    · exact powNoStd_rel hm _ ho ha
  · simp only [if_true, powiStd]
    split
    · exact hd ho (squareMultiply_rel hm _ ho ha)
    · exact squareMultiply_rel hm _ ho ha
end

theorem powiLoop_eq (f : Fmt) (b : Nat) (r a : Fl) : powiLoop f r a b = squareMultiply f.mul r a b := by
  induction b using Nat.strongRecOn generalizing r a with
  | _ b ih =>
    rw [powiLoop, squareMultiply]
    by_cases h : b = 0
    · simp only [dif_pos h]
    · simp only [dif_neg h]
      by_cases h2 : b / 2 = 0
      · simp only [if_pos h2]
      · simp only [if_neg h2]
        exact ih _ (by omega) _ _

theorem powSkip_eq (f : Fmt) (b : Nat) (a : Fl) : powSkip f a b = squareSkip f.mul a b := by
  induction b using Nat.strongRecOn generalizing a with
  | _ b ih =>
    rw [powSkip, squareSkip]
    by_cases h : b = 0 ∨ b % 2 = 1
    · simp only [dif_pos h]
    · simp only [dif_neg h]
      exact ih _ (by omega) _

theorem powAcc_eq (f : Fmt) (b : Nat) (r a : Fl) : powAcc f r a b = squareAcc f.mul r a b := by
  induction b using Nat.strongRecOn generalizing r a with
  | _ b ih =>
    rw [powAcc, squareAcc]
    by_cases h : b ≤ 1
    · simp only [dif_pos h]
    · simp only [dif_neg h]
      exact ih _ (by omega) _ _

/-- The two `powi`s of the platform, as the generic algorithms on the float operations. -/
theorem powi_eq (f : Fmt) (std : Bool) (x : Fl) (e : Int) :
    (if std then powiCompilerRt f x e else powiNumTraits f x e) = powiBuild f.mul std f.div (f.ofInt 1) x e := by
  unfold powiBuild
  cases std
  · simp only [Bool.false_eq_true, if_false, powiNumTraits, powiNoStd, powNumTraits, powNoStd, powSkip_eq, powAcc_eq]
  · simp only [if_true, powiCompilerRt, powiStd, powiLoop_eq]

/-! ### Conversion factors -/

theorem book_store {lib : FloatLib} (hl : PowiTwo lib (-1023)) {x : Fl} {b : Bounded} (h : Bounded.Holds .f64 x b) :
    Bounded.HoldsFactor lib (Magnitude.fromF64 x) b.stored := by
  rintro ⟨ok, hle⟩
  obtain ⟨v, hv, ev⟩ := h ok
  have hge : (2 : ℝ) ^ (-960 : ℤ) ≤ |(v : ℝ)| := by
    have h1 := abs_sub_abs_le_abs_sub b.value (v : ℝ)
    rw [abs_sub_comm] at h1
    linarith
  have hge' : pow2 (-960) ≤ |v| := by
    rw [← pow2_real] at hge
    exact_mod_cast hge
  obtain ⟨s, k, rfl, hk, rfl⟩ := fmtVal_inv hv
  have habs : |if s then -FloatTy.f64.fmt.mag k else FloatTy.f64.fmt.mag k| = f64Fmt.mag k := by
    split <;> simp [abs_of_nonneg (mag_nonneg f64Fmt k), FloatTy.fmt]
  have hb := (mag_ge_iff k).1 (le_trans (pow2_le.2 (by norm_num)) (habs ▸ hge'))
  rw [roundtrip_normal _ hl (by norm_num) s (show k ≤ f64Fmt.infBits from hk.le) (by omega) (by omega)]
  exact ⟨_, hv, ev⟩

theorem book_intoF32 {lib : FloatLib} {m : Magnitude} {b : Bounded} (h : Bounded.HoldsFactor lib m b) :
    Bounded.Holds .f32 (m.intoF32 lib) b.toF32 := by
  rintro ⟨ok, hl⟩
  obtain ⟨v, hv, ev⟩ := h ok
  obtain ⟨s, k, e, hk, rfl⟩ := fmtVal_inv hv
  have hk' : f64Fmt.isInf k = false := decide_eq_false (not_le.2 hk)
  rw [Magnitude.intoF32, e]
  simp only [Fmt.convert, hk', Bool.false_eq_true, if_false]
  refine book_round (t := .f32) (mag_nonneg _ _) ?_ hl
  have e1 : (if s then -((f64Fmt.mag k : ℚ) : ℝ) else ((f64Fmt.mag k : ℚ) : ℝ)) = ((if s then -FloatTy.f64.fmt.mag k else FloatTy.f64.fmt.mag k : ℚ) : ℝ) := by
    split <;> simp [FloatTy.fmt]
  rw [e1]; exact ev

open Classical in
/-- Every primitive operation keeps the books true. -/
theorem softPrims_book [IdealFns] {P : PlatformFns} {std : Bool} (hP : P.Ieee std) (t₀ : FloatTy) :
    PrimsRel (softPrims P) (bookPrims std t₀) (Bounded.Holds t₀) (Bounded.HoldsFactor P.lib) where
  zero t := .only fun e => by subst e; exact book_zero t
  one t := .only fun e => by subst e; exact book_one t
  add t _ _ _ _ hx hy := .only fun e => by subst e; exact book_addV hx hy
  sub t _ _ _ _ hx hy := .only fun e => by subst e; exact book_subV hx hy
  mul t _ _ _ _ hx hy := .only fun e => by subst e; exact book_mul hx hy
  div t _ _ _ _ hx hy := .only fun e => by subst e; exact book_div hx hy
  neg t _ _ hx := book_neg hx
  abs t _ _ hx := book_abs hx
  min t _ _ _ _ hx hy := book_min hx hy
  max t _ _ _ _ hx hy := book_max hx hy
  clamp t x x' y y' z z' w' hx hy hz h := by
    change (if y'.ok ∧ z'.ok ∧ t = t₀ ∧ y'.value ≤ z'.value ∧ y'.value + y'.err ≤ z'.value - z'.err then _ else none) = _ at h
    split at h
    · rename_i hc
      obtain ⟨oy, oz, rfl, -, hle⟩ := hc
      obtain ⟨v, hv, ev⟩ := hy oy
      obtain ⟨u, hu, eu⟩ := hz oz
      have hvu : v ≤ u := by
        have h1 := (abs_le.1 ev).2
        have h2 := (abs_le.1 eu).1
        have : (v : ℝ) ≤ u := by linarith
        exact_mod_cast this
      obtain ⟨w, hw, hval⟩ := clamp_val (fmt_p t) hv hu hvu x
      refine ⟨w, hw, ?_⟩
      injection h with h
      subst h
      intro ox
      obtain ⟨q, hq, eq⟩ := hx ox
      refine ⟨_, hval q hq, ?_⟩
      push_cast
      refine (abs_max_sub_max_le_max _ _ _ _).trans ?_
      have h1 := abs_min_sub_min_le_max (q : ℝ) u x'.value z'.value
      have h2 := h1.trans (max_le_max eq eu)
      refine max_le (ev.trans ((le_max_left _ _).trans (le_max_right _ _))) (h2.trans ?_)
      exact max_le_max le_rfl (le_max_right _ _)
    · cases h
  powi t x x' i hx := .only fun e => by
    subst e
    show Bounded.Holds t (P.powi t x i) _
    rw [hP.powi, powi_eq]
    exact powiBuild_rel (R := Bounded.Holds t) (fun h h' => book_mul h h') (fun h h' => book_div h h') _ _ (book_one t) hx
  sqrt t x x' hx := .only fun e => by subst e; exact book_sqrt (hP.sqrt t) hx
  cbrt t _ _ _ := fun o => o.elim
  fn f t _ _ _ := fun o => o.elim
  into t m m' h := by
    cases t
    · exact .only fun e => by subst e; exact book_intoF32 h
    · exact .only fun e => by subst e; exact h
  magMul {m m' k k'} h h' := by
    obtain ⟨powf, e⟩ := hP.lib
    exact book_store (e ▸ (buildLib_stores std powf).two) (book_mul (t := .f64) h h')
  magDiv {m m' k k'} h h' := by
    obtain ⟨powf, e⟩ := hP.lib
    exact book_store (e ▸ (buildLib_stores std powf).two) (book_div (t := .f64) h h')

end Diman
