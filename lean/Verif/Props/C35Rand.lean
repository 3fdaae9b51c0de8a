import Verif.Props.C35
import Verif.Model.RandFloat
import Verif.Proofs.FloatOrder
/-!
# C35 — with rand's own sampler
`C35_half_open` and its companions assume that the float sampler keeps its promise. Here rand's sampler is the one of rand 0.8.5, on IEEE floats, with an
arbitrary generator, and nothing is assumed.
-/
namespace Diman

/-- A finite float. -/
def Fmt.Fin (f : Fmt) (x : Fl) : Prop := x ≠ .nan ∧ f.Valid x ∧ ¬ f.Inf x

theorem Fmt.fin_num {f : Fmt} {s : Bool} {n : Nat} : f.Fin (.num s n) ↔ n < f.infBits := by
  simp only [Fmt.Fin, Fmt.Valid, Fmt.Inf, ne_eq, reduceCtorEq, not_false_eq_true, true_and]
  omega

theorem FloatTy.isFinite_iff {t : FloatTy} {x : Fl} : t.isFinite x = true ↔ t.fmt.Fin x := by
  cases x with
  | nan => simp [FloatTy.isFinite, Fmt.Fin]
  | num s n => rw [Fmt.fin_num]; simp [FloatTy.isFinite, Fmt.isInf]

theorem Fmt.Fin.neg {f : Fmt} {x : Fl} (h : f.Fin x) : f.Fin x.neg := by
  cases x with
  | nan => exact (h.1 rfl).elim
  | num s n => rw [Fl.neg, Fmt.fin_num]; exact Fmt.fin_num.1 h

theorem toRat_neg {f : Fmt} (x : Fl) : f.toRat x.neg = -f.toRat x := by
  cases x with
  | nan => simp [Fl.neg, Fmt.toRat]
  | num s n => cases s <;> simp [Fl.neg, Fmt.toRat]

theorem Fmt.Fin.add {f : Fmt} {x y : Fl} (hx : f.Fin x) (hy : f.Fin y) :
    f.add x y ≠ .nan ∧ f.Valid (f.add x y) ∧ f.toRat (f.add x y) = f.rd (f.toRat x + f.toRat y) := by
  have h : f.add x y ≠ .nan := by
    cases x with
    | nan => exact (hx.1 rfl).elim
    | num s a =>
      cases y with
      | nan => exact (hy.1 rfl).elim
      | num t b =>
        have ia : f.isInf a = false := by rw [← Bool.not_eq_true, isInf_iff hx.2.1]; exact hx.2.2
        have ib : f.isInf b = false := by rw [← Bool.not_eq_true, isInf_iff hy.2.1]; exact hy.2.2
        simp only [Fmt.add, ia, ib, Bool.false_eq_true, if_false]
        split <;> simp
  refine ⟨h, Fmt.add_valid _ _ _, ?_⟩
  rcases Fmt.toRat_add hx.2.1 hy.2.1 h with h1 | h1 | h1
  · exact (hx.2.2 h1.1).elim
  · exact (hy.2.2 h1.2.1).elim
  · exact h1.2.2

/-- A number of the format is not changed by rounding. -/
theorem rd_toRat {f : Fmt} (hp : 1 ≤ f.p) {x : Fl} (h : f.Valid x) : f.rd (f.toRat x) = f.toRat x := by
  cases x with
  | nan => simp [Fmt.toRat, Fmt.rd, round_zero, mag_zero]
  | num s n =>
    have hr := round_mag f hp (n := n) h
    have := toRat_round f (s := s) (mag_nonneg f n)
    rw [hr] at this
    exact this.symm

theorem fin_of_abs {f : Fmt} {x : Fl} (hx : x ≠ .nan) (hv : f.Valid x) (h : |f.toRat x| < f.mag f.infBits) : f.Fin x := by
  refine ⟨hx, hv, fun hi => ?_⟩
  have hn := mag_nonneg f f.infBits
  rcases toRat_inf hi with e | e <;> rw [e] at h <;> simp [abs_of_nonneg hn] at h

theorem abs_lt_inf {f : Fmt} (hp : 1 ≤ f.p) {x : Fl} (h : f.Fin x) : |f.toRat x| < f.mag f.infBits := by
  have hm := mag_strictMono f hp
  cases x with
  | nan => exact (h.1 rfl).elim
  | num s n =>
    have := hm (Fmt.fin_num.1 h)
    cases s <;> simpa [Fmt.toRat, abs_of_nonneg (mag_nonneg f n)] using this

/-! ## The unit interval -/

theorem ofInt_one (t : FloatTy) : t.fmt.ofInt 1 = t.ofFraction 0 := by cases t <;> decide +kernel
theorem toRat_one (t : FloatTy) : t.fmt.toRat (t.ofFraction 0) = 1 := by cases t <;> decide +kernel
theorem maxRand_bounds (t : FloatTy) : 0 < t.fmt.toRat t.maxRand ∧ t.fmt.toRat t.maxRand < 1 ∧ 1 < t.fmt.mag t.fmt.infBits := by
  cases t <;> decide +kernel
theorem ofFraction_fin (t : FloatTy) {k : Nat} (h : k ≤ t.maxFraction) : t.fmt.Fin (t.ofFraction k) := by
  have : t.maxFraction < 2 ^ t.fractionBits := by cases t <;> decide +kernel
  unfold FloatTy.ofFraction
  rw [Fmt.fin_num]
  cases t
  · have e : FloatTy.f32.fmt.infBits = 255 * 2 ^ 23 := by decide +kernel
    rw [e]; simp only [FloatTy.fractionBits] at *; omega
  · have e : FloatTy.f64.fmt.infBits = 2047 * 2 ^ 52 := by decide +kernel
    rw [e]; simp only [FloatTy.fractionBits] at *; omega

theorem ofFraction_mono (t : FloatTy) {k k' : Nat} (h : k ≤ k') : t.fmt.toRat (t.ofFraction k) ≤ t.fmt.toRat (t.ofFraction k') := by
  simp only [FloatTy.ofFraction, Fmt.toRat, Bool.false_eq_true, if_false]
  exact (mag_strictMono t.fmt (fmt_p t)).monotone (by omega)

theorem randomFraction_le {G : Type} (R : Rng G) (t : FloatTy) (g : G) : (t.randomFraction R g).1 ≤ t.maxFraction := by
  cases t
  · simp only [FloatTy.randomFraction, FloatTy.maxFraction, Nat.shiftRight_eq_div_pow]
    exact Nat.div_le_div_right (by have := (R.nextU32 g).1.isLt; omega)
  · simp only [FloatTy.randomFraction, FloatTy.maxFraction, Nat.shiftRight_eq_div_pow]
    exact Nat.div_le_div_right (by have := (R.nextU64 g).1.isLt; omega)

theorem unitInterval_val (t : FloatTy) {k : Nat} (h : k ≤ t.maxFraction) :
    t.unitInterval k ≠ .nan ∧ t.fmt.Valid (t.unitInterval k) ∧ t.fmt.toRat (t.unitInterval k) = t.fmt.rd (t.fmt.toRat (t.ofFraction k) - 1) := by
  have h1 : t.fmt.Fin (t.fmt.ofInt 1).neg := by rw [ofInt_one]; exact (ofFraction_fin t (Nat.zero_le _)).neg
  have := (ofFraction_fin t h).add h1
  rw [toRat_neg, ofInt_one, toRat_one, ← sub_eq_add_neg] at this
  rw [← ofInt_one] at this
  exact this

theorem unitInterval_bounds (t : FloatTy) {k : Nat} (h : k ≤ t.maxFraction) :
    t.fmt.Fin (t.unitInterval k) ∧ 0 ≤ t.fmt.toRat (t.unitInterval k) ∧ t.fmt.toRat (t.unitInterval k) ≤ t.fmt.toRat t.maxRand := by
  obtain ⟨h1, h2, h3⟩ := unitInterval_val t h
  have hm := (unitInterval_val t (le_refl t.maxFraction)).2.2
  have hp := fmt_p t
  have a : 0 ≤ t.fmt.toRat (t.unitInterval k) := by
    rw [h3]
    have := Fmt.rd_mono hp (show (0 : ℚ) ≤ t.fmt.toRat (t.ofFraction k) - 1 by
      have := ofFraction_mono t (Nat.zero_le k); rw [toRat_one] at this; linarith)
    simpa [Fmt.rd, round_zero, mag_zero] using this
  have b : t.fmt.toRat (t.unitInterval k) ≤ t.fmt.toRat t.maxRand := by
    rw [FloatTy.maxRand, h3, hm]
    exact Fmt.rd_mono hp (by linarith [ofFraction_mono t h])
  obtain ⟨m1, m2, m3⟩ := maxRand_bounds t
  exact ⟨fin_of_abs h1 h2 (by rw [abs_of_nonneg a]; linarith), a, b⟩

/-! ## The samples -/

theorem rd_zero (f : Fmt) : f.rd 0 = 0 := by simp [Fmt.rd, round_zero, mag_zero]

/-- A number of the unit interval times the scale. -/
theorem scaled (t : FloatTy) {v s : Fl} (hv : t.fmt.Fin v) (v0 : 0 ≤ t.fmt.toRat v) (v1 : t.fmt.toRat v ≤ 1) (hs : t.fmt.Fin s)
    (s0 : 0 ≤ t.fmt.toRat s) : t.fmt.Fin (t.fmt.mul v s) ∧ t.fmt.toRat (t.fmt.mul v s) = t.fmt.rd (t.fmt.toRat v * t.fmt.toRat s) ∧
      0 ≤ t.fmt.toRat (t.fmt.mul v s) := by
  have hp := fmt_p t
  obtain ⟨h1, h2⟩ := Fmt.toRat_mul hv.2.1 hs.2.1 hv.1 hs.1 hv.2.2 hs.2.2
  have a : 0 ≤ t.fmt.toRat (t.fmt.mul v s) := by
    rw [h2, ← rd_zero t.fmt]; exact Fmt.rd_mono hp (mul_nonneg v0 s0)
  refine ⟨fin_of_abs h1 (Fmt.mul_valid _ _ _) ?_, h2, a⟩
  rw [abs_of_nonneg a, h2]
  have := Fmt.rd_mono hp (show t.fmt.toRat v * t.fmt.toRat s ≤ t.fmt.toRat s from mul_le_of_le_one_left s0 v1)
  rw [rd_toRat hp hs.2.1] at this
  have h3 := abs_lt_inf hp hs
  rw [abs_of_nonneg s0] at h3
  linarith

theorem mul_comm_rat (t : FloatTy) {v s : Fl} (hv : t.fmt.Fin v) (hs : t.fmt.Fin s) : t.fmt.mul v s = t.fmt.mul s v := by
  cases v with
  | nan => exact (hv.1 rfl).elim
  | num a n =>
    cases s with
    | nan => exact (hs.1 rfl).elim
    | num b m =>
      rw [mul_num _ (Fmt.fin_num.1 hv) (Fmt.fin_num.1 hs), mul_num _ (Fmt.fin_num.1 hs) (Fmt.fin_num.1 hv), mul_comm (t.fmt.mag n)]
      cases a <;> cases b <;> rfl

/-- Every sample is between the lower bound and the greatest sample. -/
theorem sample_between (t : FloatTy) {low s : Fl} (hl : t.fmt.Fin low) (hs : t.fmt.Fin s) (s0 : 0 ≤ t.fmt.toRat s) {k : Nat} (hk : k ≤ t.maxFraction) :
    let x := t.fmt.add (t.fmt.mul (t.unitInterval k) s) low
    x ≠ .nan ∧ t.greatest low s ≠ .nan ∧ t.fmt.toRat low ≤ t.fmt.toRat x ∧ t.fmt.toRat x ≤ t.fmt.toRat (t.greatest low s) := by
  have hp := fmt_p t
  obtain ⟨u1, u2, u3⟩ := unitInterval_bounds t hk
  obtain ⟨m1, m2, _⟩ := unitInterval_bounds t (le_refl t.maxFraction)
  obtain ⟨b1, b2, b3⟩ := maxRand_bounds t
  obtain ⟨p1, p2, p3⟩ := scaled t u1 u2 (by linarith) hs s0
  obtain ⟨q1, q2, q3⟩ := scaled t m1 m2 b2.le hs s0
  obtain ⟨a1, a2, a3⟩ := p1.add hl
  obtain ⟨c1, c2, c3⟩ := q1.add hl
  have eg : t.greatest low s = t.fmt.add (t.fmt.mul t.maxRand s) low := by
    unfold FloatTy.greatest FloatTy.maxRand; rw [mul_comm_rat t hs m1]
  refine ⟨a1, by rw [eg]; exact c1, ?_, ?_⟩
  · rw [a3, ← rd_toRat hp hl.2.1]
    rw [rd_toRat hp hl.2.1]
    have := Fmt.rd_mono hp (show t.fmt.toRat low ≤ t.fmt.toRat (t.fmt.mul (t.unitInterval k) s) + t.fmt.toRat low by linarith)
    rwa [rd_toRat hp hl.2.1] at this
  · rw [eg, FloatTy.maxRand, a3, c3]
    refine Fmt.rd_mono hp ?_
    rw [p2, q2]
    have := Fmt.rd_mono hp (mul_le_mul_of_nonneg_right u3 s0)
    unfold FloatTy.maxRand at this
    linarith

theorem shrinkScale_some {P : Fl → Bool} {neg : Bool} {n : Nat} {s : Fl} (h : shrinkScale P neg n = some s) :
    ∃ m ≤ n, s = .num neg m ∧ P s = false := by
  induction n with
  | zero =>
    unfold shrinkScale at h
    split at h
    · cases h
    · rename_i hc
      cases h; exact ⟨0, le_refl _, rfl, by simpa using hc⟩
  | succ n ih =>
    unfold shrinkScale at h
    split at h
    · obtain ⟨m, h1, h2⟩ := ih h; exact ⟨m, by omega, h2⟩
    · rename_i hc
      cases h; exact ⟨n + 1, le_refl _, rfl, by simpa using hc⟩

theorem shrinkScale_exists {P : Fl → Bool} {neg : Bool} (h : P (.num neg 0) = false) (n : Nat) : ∃ s, shrinkScale P neg n = some s := by
  induction n with
  | zero => unfold shrinkScale; rw [h]; exact ⟨_, rfl⟩
  | succ n ih => unfold shrinkScale; split; exacts [ih, ⟨_, rfl⟩]

theorem fin_of_add {f : Fmt} {x y : Fl} (h : f.Fin (f.add x y)) : f.Fin x ∧ f.Fin y := by
  cases x with
  | nan => exact (h.1 (by cases y <;> rfl)).elim
  | num s a =>
    cases y with
    | nan => exact (h.1 rfl).elim
    | num t b =>
      rw [Fmt.fin_num, Fmt.fin_num]
      simp only [Fmt.add] at h
      split at h
      · split at h
        · exact (h.1 rfl).elim
        · exact (h.2.2 rfl).elim
      · split at h
        · exact (h.2.2 rfl).elim
        · rename_i h1 h2
          simp [Fmt.isInf] at h1 h2; omega

theorem fin_of_div {f : Fmt} {x y : Fl} (h : f.Fin (f.div x y)) (hy : f.Fin y) : f.Fin x := by
  cases x with
  | nan => exact (h.1 (by cases y <;> rfl)).elim
  | num s a =>
    cases y with
    | nan => exact (hy.1 rfl).elim
    | num t b =>
      rw [Fmt.fin_num] at hy ⊢
      by_contra hc
      have h1 : f.isInf a = true := by simp [Fmt.isInf]; omega
      have h2 : f.isInf b = false := by simp [Fmt.isInf]; omega
      simp only [Fmt.div, h1, h2, if_true, Bool.false_eq_true, if_false] at h
      exact h.2.2 rfl

theorem lt_iff_toRat (t : FloatTy) {x y : Fl} (hx : x ≠ .nan) (hy : y ≠ .nan) : x.lt y = true ↔ t.fmt.toRat x < t.fmt.toRat y := by
  cases x with
  | nan => exact (hx rfl).elim
  | num s a => cases y with
    | nan => exact (hy rfl).elim
    | num s' b => rw [lt_toRat (fmt_p t)]; simp
theorem feq_iff_toRat (t : FloatTy) {x y : Fl} (hx : x ≠ .nan) (hy : y ≠ .nan) : x.feq y = true ↔ t.fmt.toRat x = t.fmt.toRat y := by
  cases x with
  | nan => exact (hx rfl).elim
  | num s a => cases y with
    | nan => exact (hy rfl).elim
    | num s' b => rw [feq_toRat (fmt_p t)]; simp

/-- What the preparation gives. -/
theorem prepare_some {t : FloatTy} {P : Fl → Bool} {low s : Fl} {u : RandUniform} (h : t.prepare P low s = some u) (s0 : 0 ≤ t.fmt.toRat s) :
    t.fmt.Fin s ∧ u.low = low ∧ t.fmt.Fin u.scale ∧ 0 ≤ t.fmt.toRat u.scale ∧ P u.scale = false := by
  cases s with
  | nan => simp [FloatTy.prepare] at h
  | num neg n =>
    simp only [FloatTy.prepare] at h
    split at h
    · rename_i hf
      obtain ⟨s, hs, rfl⟩ := Option.map_eq_some_iff.1 h
      obtain ⟨m, hm, rfl, hP⟩ := shrinkScale_some hs
      have hn := FloatTy.isFinite_iff.1 hf
      refine ⟨hn, rfl, ?_, ?_, hP⟩
      · rw [Fmt.fin_num] at hn ⊢; omega
      · cases neg
        · simpa [Fmt.toRat] using mag_nonneg t.fmt m
        · simp only [Fmt.toRat, if_true] at s0 ⊢
          have : m = 0 := by
            by_contra hc
            have := mag_pos t.fmt (n := n) (by omega)
            linarith
          rw [this, mag_zero]; simp
    · cases h

/-- The greatest sample for the scale zero is the lower bound. -/
theorem greatest_zero (t : FloatTy) {low : Fl} (hl : t.fmt.Fin low) (neg : Bool) :
    t.greatest low (.num neg 0) ≠ .nan ∧ t.fmt.toRat (t.greatest low (.num neg 0)) = t.fmt.toRat low := by
  have hp := fmt_p t
  have z : t.fmt.toRat (.num neg 0) = 0 := by cases neg <;> simp [Fmt.toRat, mag_zero]
  have hz : t.fmt.Fin (.num neg 0) := by rw [Fmt.fin_num]; cases t <;> decide +kernel
  obtain ⟨m1, m2, _⟩ := unitInterval_bounds t (le_refl t.maxFraction)
  obtain ⟨q1, q2, q3⟩ := scaled t m1 m2 (maxRand_bounds t).2.1.le hz (le_of_eq z.symm)
  obtain ⟨c1, c2, c3⟩ := q1.add hl
  have eg : t.greatest low (.num neg 0) = t.fmt.add (t.fmt.mul (t.unitInterval t.maxFraction) (.num neg 0)) low := by
    unfold FloatTy.greatest FloatTy.maxRand; rw [mul_comm_rat t hz m1]
  rw [eg]
  refine ⟨c1, ?_⟩
  rw [c3, q2, z, mul_zero, rd_zero, zero_add, rd_toRat hp hl.2.1]

theorem prepare_exists {t : FloatTy} {P : Fl → Bool} {low s : Fl} (hs : t.fmt.Fin s) (hP : ∀ neg, P (.num neg 0) = false) :
    ∃ u, t.prepare P low s = some u := by
  cases s with
  | nan => exact (hs.1 rfl).elim
  | num neg n =>
    obtain ⟨s, h⟩ := shrinkScale_exists (hP neg) n
    exact ⟨_, by simp only [FloatTy.prepare]; rw [if_pos (FloatTy.isFinite_iff.2 hs), h]; rfl⟩

theorem lt_not_nan {x y : Fl} (h : x.lt y = true) : x ≠ .nan ∧ y ≠ .nan := by
  cases x <;> cases y <;> simp_all [Fl.lt]
theorem feq_not_nan {x y : Fl} (h : x.feq y = true) : x ≠ .nan ∧ y ≠ .nan := by
  cases x <;> cases y <;> simp_all [Fl.feq]

/-- The width of the range. -/
theorem width (t : FloatTy) {low high : Fl} (hl : t.fmt.Fin low) (hh : t.fmt.Fin high) (h : t.fmt.toRat low ≤ t.fmt.toRat high) :
    0 ≤ t.fmt.toRat (t.fmt.add high low.neg) := by
  rw [(hh.add hl.neg).2.2, toRat_neg, ← rd_zero t.fmt]
  exact Fmt.rd_mono (fmt_p t) (by linarith)

theorem quotient_nonneg (t : FloatTy) {d : Fl} (hd : t.fmt.Fin d) (h : 0 ≤ t.fmt.toRat d) : 0 ≤ t.fmt.toRat (t.fmt.div d t.maxRand) := by
  have m1 : t.fmt.Fin t.maxRand := (unitInterval_bounds t (le_refl t.maxFraction)).1
  have m0 := (maxRand_bounds t).1
  rw [(Fmt.toRat_div hd.2.1 m1.2.1 hd.1 m1.1 hd.2.2 m1.2.2 (ne_of_gt m0)).2, ← rd_zero t.fmt]
  exact Fmt.rd_mono (fmt_p t) (div_nonneg h m0.le)

section
variable {G : Type} (R : Rng G) (P : PlatformFns)

theorem partialCmp_lt (t : FloatTy) {x y : Fl} (hx : x ≠ .nan) (hy : y ≠ .nan) (h : t.fmt.toRat x < t.fmt.toRat y) :
    letI := softPrims P
    partialCmp Magnitude t x y = some .lt := by
  have h1 : x.feq y = false := by rw [← Bool.not_eq_true, feq_iff_toRat t hx hy]; exact ne_of_lt h
  have h2 : x.lt y = true := (lt_iff_toRat t hx hy).2 h
  simp only [partialCmp, Prims.eq, Prims.lt, h1, h2]
  simp
theorem partialCmp_le (t : FloatTy) {x y : Fl} (hx : x ≠ .nan) (hy : y ≠ .nan) (h : t.fmt.toRat x ≤ t.fmt.toRat y) :
    letI := softPrims P
    partialCmp Magnitude t x y = some .lt ∨ partialCmp Magnitude t x y = some .eq := by
  rcases h.lt_or_eq with h | h
  · exact .inl (partialCmp_lt P t hx hy h)
  · right
    have h1 : x.feq y = true := (feq_iff_toRat t hx hy).2 h
    simp only [partialCmp, Prims.eq, h1, if_true]

/-- rand's sampler keeps its promise, whatever the generator. -/
theorem randUniformFloat_sound : letI := softPrims P; (randUniformFloat R).Sound Magnitude := by
  let := softPrims P
  constructor
  · intro t low high u hu g x
    simp only [randUniformFloat] at hu
    split at hu
    · rename_i hlt
      obtain ⟨nl, nh⟩ := lt_not_nan hlt
      have hlt' := (lt_iff_toRat t nl nh).1 hlt
      have hfin : t.fmt.Fin (t.fmt.add high low.neg) := by
        cases hs : t.fmt.add high low.neg with
        | nan => rw [hs] at hu; simp [FloatTy.prepare] at hu
        | num neg n =>
          rw [hs] at hu
          simp only [FloatTy.prepare] at hu
          split at hu
          · exact FloatTy.isFinite_iff.1 ‹_›
          · cases hu
      obtain ⟨hh, hl⟩ := fin_of_add hfin
      have hl : t.fmt.Fin low := by have := hl.neg; rwa [show low.neg.neg = low by cases low <;> simp [Fl.neg]] at this
      obtain ⟨_, e, fs, s0, hP⟩ := prepare_some hu (width t hl hh hlt'.le)
      obtain ⟨x1, x2, x3, x4⟩ := sample_between t hl fs s0 (randomFraction_le R t g)
      have ex : x = t.fmt.add (t.fmt.mul (t.unitInterval (t.randomFraction R g).1) u.scale) low := by rw [← e]; rfl
      rw [← ex] at x1 x3 x4
      refine ⟨partialCmp_le P t nl x1 x3, partialCmp_lt P t x1 nh (lt_of_le_of_lt x4 ?_)⟩
      simp only [Bool.or_eq_false_iff] at hP
      have a1 := hP.1
      have a2 := hP.2
      rw [← Bool.not_eq_true, lt_iff_toRat t nh x2] at a1
      rw [← Bool.not_eq_true, feq_iff_toRat t x2 nh] at a2
      exact lt_of_le_of_ne (not_lt.1 a1) a2
    · cases hu
  · intro t low high u hu g x
    simp only [randUniformFloat] at hu
    split at hu
    · rename_i hlt
      have hnn : low ≠ .nan ∧ high ≠ .nan := by
        rcases Bool.or_eq_true _ _ ▸ hlt with h | h
        exacts [lt_not_nan h, feq_not_nan h]
      obtain ⟨nl, nh⟩ := hnn
      have hlt' : t.fmt.toRat low ≤ t.fmt.toRat high := by
        rcases Bool.or_eq_true _ _ ▸ hlt with h | h
        exacts [((lt_iff_toRat t nl nh).1 h).le, ((feq_iff_toRat t nl nh).1 h).le]
      have hfin : t.fmt.Fin (t.fmt.div (t.fmt.add high low.neg) t.maxRand) := by
        cases hs : t.fmt.div (t.fmt.add high low.neg) t.maxRand with
        | nan => rw [hs] at hu; simp [FloatTy.prepare] at hu
        | num neg n =>
          rw [hs] at hu
          simp only [FloatTy.prepare] at hu
          split at hu
          · exact FloatTy.isFinite_iff.1 ‹_›
          · cases hu
      have hw := fin_of_div hfin (unitInterval_bounds t (le_refl t.maxFraction)).1
      obtain ⟨hh, hl⟩ := fin_of_add hw
      have hl : t.fmt.Fin low := by have := hl.neg; rwa [show low.neg.neg = low by cases low <;> simp [Fl.neg]] at this
      obtain ⟨_, e, fs, s0, hP⟩ := prepare_some hu (quotient_nonneg t hw (width t hl hh hlt'))
      obtain ⟨x1, x2, x3, x4⟩ := sample_between t hl fs s0 (randomFraction_le R t g)
      have ex : x = t.fmt.add (t.fmt.mul (t.unitInterval (t.randomFraction R g).1) u.scale) low := by rw [← e]; rfl
      rw [← ex] at x1 x3 x4
      refine ⟨partialCmp_le P t nl x1 x3, partialCmp_le P t x1 nh (le_trans x4 ?_)⟩
      rw [← Bool.not_eq_true, lt_iff_toRat t nh x2] at hP
      exact not_lt.1 hP
    · cases hu

/-- **C35, with rand 0.8.5.** Whatever the generator and whatever the bounds: a quantity drawn with `gen_range(low..high)` is at least `low` and below
`high`, one drawn with `gen_range(low..=high)` is between the two. Nothing is assumed of the float sampler. -/
theorem C35_rand (t : FloatTy) (low high v : Val Fl Magnitude) (g g' : G) :
    letI := softPrims P
    (genRange (randUniformFloat R) t low high g = some (v, g') →
      (quantityCmp t low v = some (.ordering (some .lt)) ∨ quantityCmp t low v = some (.ordering (some .eq))) ∧
        quantityCmp t v high = some (.ordering (some .lt))) ∧
    (genRangeInclusive (randUniformFloat R) t low high g = some (v, g') →
      (quantityCmp t low v = some (.ordering (some .lt)) ∨ quantityCmp t low v = some (.ordering (some .eq))) ∧
        (quantityCmp t v high = some (.ordering (some .lt)) ∨ quantityCmp t v high = some (.ordering (some .eq)))) := by
  let := softPrims P
  have h := randUniformFloat_sound R P
  exact ⟨C35_half_open _ h t low high v g g', C35_inclusive _ h t low high v g g'⟩

/-- **C35, when nothing can be drawn.** `gen_range(low..high)` returns exactly if `low < high` and the difference of the two does not overflow;
`gen_range(low..=high)` exactly if `low <= high` and the difference, divided by the greatest number below one the generator can give, does not
overflow. In all other cases, NaN among them, it panics; the loop that prepares the
distribution always ends. -/
theorem C35_rand_returns (t : FloatTy) (low high : Fl) (g : G) :
    ((∃ r, genRange (randUniformFloat R) t (.quantity [low] : Val Fl Magnitude) (.quantity [high]) g = some r) ↔
      low.lt high = true ∧ t.fmt.Fin (t.fmt.add high low.neg)) ∧
    ((∃ r, genRangeInclusive (randUniformFloat R) t (.quantity [low] : Val Fl Magnitude) (.quantity [high]) g = some r) ↔
      (low.lt high = true ∨ low.feq high = true) ∧ t.fmt.Fin (t.fmt.div (t.fmt.add high low.neg) t.maxRand)) := by
  let P : PlatformFns := ⟨⟨fun x _ => x, fun x _ => x⟩, fun _ x _ => x, fun _ x => x, fun _ x => x, fun _ _ x => x⟩
  let := softPrims P
  obtain ⟨s1, s2⟩ := C35_same_stream (M := Magnitude) (randUniformFloat R) t low high g
  rw [s1, s2]
  have fin_of_prepare : ∀ {P : Fl → Bool} {low s : Fl} {u}, t.prepare P low s = some u → t.fmt.Fin s := by
    intro P low s u h
    cases s with
    | nan => simp [FloatTy.prepare] at h
    | num neg n =>
      simp only [FloatTy.prepare] at h
      split at h
      · exact FloatTy.isFinite_iff.1 ‹_›
      · cases h
  constructor
  · constructor
    · rintro ⟨r, h⟩
      obtain ⟨u, hu, _⟩ := Option.map_eq_some_iff.1 h
      simp only [randUniformFloat] at hu
      split at hu
      · exact ⟨‹_›, fin_of_prepare hu⟩
      · cases hu
    · rintro ⟨h1, h2⟩
      obtain ⟨nl, nh⟩ := lt_not_nan h1
      have hlt' := (lt_iff_toRat t nl nh).1 h1
      obtain ⟨hh, hl⟩ := fin_of_add h2
      have hl : t.fmt.Fin low := by have := hl.neg; rwa [show low.neg.neg = low by cases low <;> simp [Fl.neg]] at this
      obtain ⟨u, hu⟩ := prepare_exists (t := t) (low := low)
        (P := fun s => high.lt (t.greatest low s) || (t.greatest low s).feq high) h2 (by
        intro neg
        obtain ⟨g1, g2⟩ := greatest_zero t hl neg
        simp only [Bool.or_eq_false_iff]
        rw [← Bool.not_eq_true, ← Bool.not_eq_true, lt_iff_toRat t nh g1, feq_iff_toRat t g1 nh, g2]
        exact ⟨not_lt.2 hlt'.le, ne_of_lt hlt'⟩)
      refine ⟨_, Option.map_eq_some_iff.2 ⟨u, ?_, rfl⟩⟩
      simp only [randUniformFloat, h1, if_true]
      exact hu
  · constructor
    · rintro ⟨r, h⟩
      obtain ⟨u, hu, _⟩ := Option.map_eq_some_iff.1 h
      simp only [randUniformFloat] at hu
      split at hu
      · rename_i hc
        exact ⟨by simpa using hc, fin_of_prepare hu⟩
      · cases hu
    · rintro ⟨h1, h2⟩
      have hnn : low ≠ .nan ∧ high ≠ .nan := by
        rcases h1 with h | h
        exacts [lt_not_nan h, feq_not_nan h]
      obtain ⟨nl, nh⟩ := hnn
      have hlt' : t.fmt.toRat low ≤ t.fmt.toRat high := by
        rcases h1 with h | h
        exacts [((lt_iff_toRat t nl nh).1 h).le, ((feq_iff_toRat t nl nh).1 h).le]
      obtain ⟨hh, hl⟩ := fin_of_add (fin_of_div h2 (unitInterval_bounds t (le_refl t.maxFraction)).1)
      have hl : t.fmt.Fin low := by have := hl.neg; rwa [show low.neg.neg = low by cases low <;> simp [Fl.neg]] at this
      obtain ⟨u, hu⟩ := prepare_exists (t := t) (low := low) (P := fun s => high.lt (t.greatest low s)) h2 (by
        intro neg
        obtain ⟨g1, g2⟩ := greatest_zero t hl neg
        rw [← Bool.not_eq_true, lt_iff_toRat t nh g1, g2]
        exact not_lt.2 hlt')
      refine ⟨_, Option.map_eq_some_iff.2 ⟨u, ?_, rfl⟩⟩
      have hc : (low.lt high || low.feq high) = true := by simpa using h1
      simp only [randUniformFloat, hc, if_true]
      exact hu
end

/-! ## How long it takes -/

/-- The greatest sample grows with the scale. -/
theorem greatest_mono (t : FloatTy) {low : Fl} (hl : t.fmt.Fin low) {m n : Nat} (h : m ≤ n) (hn : n < t.fmt.infBits) :
    t.greatest low (.num false n) ≠ .nan ∧
    t.fmt.toRat (t.greatest low (.num false m)) ≤ t.fmt.toRat (t.greatest low (.num false n)) := by
  have hp := fmt_p t
  have fm : t.fmt.Fin (.num false m) := by rw [Fmt.fin_num]; omega
  have fn : t.fmt.Fin (.num false n) := by rw [Fmt.fin_num]; omega
  have p0 : ∀ k, 0 ≤ t.fmt.toRat (.num false k) := fun k => by simpa [Fmt.toRat] using mag_nonneg t.fmt k
  obtain ⟨m1, m2, _⟩ := unitInterval_bounds t (le_refl t.maxFraction)
  obtain ⟨b1, b2, b3⟩ := maxRand_bounds t
  have e : ∀ {k}, t.fmt.Fin (.num false k) →
      t.greatest low (.num false k) = t.fmt.add (t.fmt.mul (t.unitInterval t.maxFraction) (.num false k)) low := by
    intro k hk; unfold FloatTy.greatest FloatTy.maxRand; rw [mul_comm_rat t hk m1]
  obtain ⟨p1, p2, p3⟩ := scaled t m1 m2 b2.le fm (p0 m)
  obtain ⟨q1, q2, q3⟩ := scaled t m1 m2 b2.le fn (p0 n)
  rw [e fm, e fn, (p1.add hl).2.2, (q1.add hl).2.2]
  refine ⟨(q1.add hl).1, Fmt.rd_mono hp (add_le_add_left ?_ _)⟩
  rw [p2, q2]
  refine Fmt.rd_mono hp (mul_le_mul_of_nonneg_left ?_ m2)
  simpa [Fmt.toRat] using (mag_strictMono t.fmt hp).monotone h

theorem shrinkScale_skips {P : Fl → Bool} {neg : Bool} {m k : Nat} (h : ∀ j, m < j → j ≤ m + k → P (.num neg j) = true) :
    shrinkScale P neg (m + k) = shrinkScale P neg m := by
  induction k with
  | zero => rfl
  | succ k ih =>
    rw [← Nat.add_assoc, shrinkScale, if_pos (h _ (by omega) (by omega))]
    exact ih fun j h1 h2 => h j h1 (by omega)

/-- **C35, a finding (F28).** The loop that prepares the distribution can take very long: for `f64` between 1 and the next number it makes the scale, which
is the float with bits `971 * 2^52` (`2^-52`), smaller one bit pattern at a time until it is the float with bits `970 * 2^52 + 1`, which takes
`2^52 - 1` steps. -/
theorem C35_rand_slow {G : Type} (R : Rng G) :
    f64Fmt.add (.num false (1023 * 2 ^ 52 + 1)) (f64Fmt.ofInt 1).neg = .num false (971 * 2 ^ 52) ∧
    (randUniformFloat R).new .f64 (f64Fmt.ofInt 1) (.num false (1023 * 2 ^ 52 + 1)) = some ⟨f64Fmt.ofInt 1, .num false (970 * 2 ^ 52 + 1)⟩ := by
  have h1 : f64Fmt.add (.num false (1023 * 2 ^ 52 + 1)) (f64Fmt.ofInt 1).neg = .num false (971 * 2 ^ 52) := by decide +kernel
  refine ⟨h1, ?_⟩
  have hlt : (f64Fmt.ofInt 1).lt (.num false (1023 * 2 ^ 52 + 1)) = true := by decide +kernel
  have hl : FloatTy.f64.fmt.Fin (f64Fmt.ofInt 1) := by rw [← FloatTy.isFinite_iff]; decide +kernel
  have hb : FloatTy.f64.fmt.toRat (FloatTy.f64.greatest (f64Fmt.ofInt 1) (.num false (970 * 2 ^ 52 + 2))) =
      FloatTy.f64.fmt.toRat (.num false (1023 * 2 ^ 52 + 1)) := by decide +kernel
  have hf : FloatTy.f64.isFinite (.num false (971 * 2 ^ 52)) = true := by decide +kernel
  simp only [randUniformFloat, hlt, if_true]
  rw [show FloatTy.f64.fmt.add (.num false (1023 * 2 ^ 52 + 1)) (f64Fmt.ofInt 1).neg = .num false (971 * 2 ^ 52) from h1]
  simp only [FloatTy.prepare, hf, if_true]
  rw [show 971 * 2 ^ 52 = (970 * 2 ^ 52 + 1) + (2 ^ 52 - 1) by norm_num, shrinkScale_skips, shrinkScale]
  · decide +kernel
  · intro j h2 h3
    have hi : FloatTy.f64.fmt.infBits = 2047 * 2 ^ 52 := by decide +kernel
    obtain ⟨g1, g2⟩ := greatest_mono .f64 hl (m := 970 * 2 ^ 52 + 2) (n := j) (by omega) (by rw [hi]; omega)
    rw [hb] at g2
    rw [Bool.or_eq_true, lt_iff_toRat .f64 (by simp) g1, feq_iff_toRat .f64 g1 (by simp)]
    rcases g2.lt_or_eq with h | h
    · exact .inl h
    · exact .inr h.symm

/-! ## Cases -/

/-- A generator that always gives ones. -/
def Rng.ones : Rng Unit := ⟨fun g => (BitVec.allOnes 32, g), fun g => (BitVec.allOnes 64, g)⟩

/-- Between 1 and 2: the greatest sample is the number before 2. -/
example : genRange (randUniformFloat Rng.ones) .f64 (.quantity [f64Fmt.ofInt 1] : Val Fl Magnitude) (.quantity [f64Fmt.ofInt 2]) () =
    some (.quantity [.num false (1024 * 2 ^ 52 - 1)], ()) := by decide +kernel

/-- Between 13 and 15.1 (`f32`) the difference would give a sample equal to 15.1; two steps down, it does not. -/
example : (randUniformFloat Rng.ones).new .f32 (f32Fmt.ofInt 13) (.num false 1097963930) = some ⟨f32Fmt.ofInt 13, .num false 1074161254⟩ ∧
    f32Fmt.add (.num false 1097963930) (f32Fmt.ofInt 13).neg = .num false 1074161256 ∧
    f32Fmt.add (f32Fmt.mul (.num false 1074161256) (FloatTy.maxRand .f32)) (f32Fmt.ofInt 13) = .num false 1097963930 ∧
    genRange (randUniformFloat Rng.ones) .f32 (.quantity [f32Fmt.ofInt 13] : Val Fl Magnitude) (.quantity [.num false 1097963930]) () =
      some (.quantity [.num false 1097963929], ()) := by decide +kernel

/-- An inclusive range of one number, and an empty range. -/
example : genRangeInclusive (randUniformFloat Rng.ones) .f64 (.quantity [f64Fmt.ofInt 1] : Val Fl Magnitude) (.quantity [f64Fmt.ofInt 1]) () =
      some (.quantity [f64Fmt.ofInt 1], ()) ∧
    genRange (randUniformFloat Rng.ones) .f64 (.quantity [f64Fmt.ofInt 1] : Val Fl Magnitude) (.quantity [f64Fmt.ofInt 1]) () = none := by
  decide +kernel

end Diman
