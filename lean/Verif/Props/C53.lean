import Verif.Props.C22
import Verif.Props.C46
import Verif.Props.C32Components
import Verif.Proofs.FloatOrder
import Mathlib.Data.EReal.Basic
/-!
# C53 — float quantities are ordered like the numbers they denote, and creating, adding, scaling and reading out respect the order
Everything here is about binary32/binary64 arithmetic with rounding, overflow, infinities and NaN; there are no error bounds: the claims hold
exactly.
-/
set_option linter.unusedSectionVars false
namespace Diman

/-- The extended real number that a float of type `t` denotes (NaN denotes none; 0 is a placeholder). -/
noncomputable def FloatTy.extended (t : FloatTy) : Fl → EReal
  | .nan => 0
  | .num s n => if t.fmt.infBits ≤ n then (if s then ⊥ else ⊤) else (((if s then -t.fmt.mag n else t.fmt.mag n : ℚ) : ℝ) : EReal)

/-- `x ≤ y` of floats: neither is NaN, and the extended real numbers they denote are so ordered. -/
def FloatTy.Le (t : FloatTy) (x y : Fl) : Prop := x ≠ .nan ∧ y ≠ .nan ∧ t.extended x ≤ t.extended y

theorem extended_lt {t : FloatTy} {x y : Fl} (vx : t.fmt.Valid x) (vy : t.fmt.Valid y) (nx : x ≠ .nan) (ny : y ≠ .nan) :
    t.extended x < t.extended y ↔ t.fmt.toRat x < t.fmt.toRat y := by
  cases x with
  | nan => exact (nx rfl).elim
  | num s a =>
    cases y with
    | nan => exact (ny rfl).elim
    | num s' b =>
      have hm := mag_strictMono t.fmt (fmt_p t)
      have hI := mag_pos t.fmt (infBits_pos t)
      have ha0 := mag_nonneg t.fmt a
      have hb0 := mag_nonneg t.fmt b
      have la : t.fmt.infBits ≤ a ∨ t.fmt.mag a < t.fmt.mag t.fmt.infBits := by
        rcases le_or_gt t.fmt.infBits a with h | h
        · exact .inl h
        · exact .inr (hm h)
      have lb : t.fmt.infBits ≤ b ∨ t.fmt.mag b < t.fmt.mag t.fmt.infBits := by
        rcases le_or_gt t.fmt.infBits b with h | h
        · exact .inl h
        · exact .inr (hm h)
      have ea : t.fmt.infBits ≤ a → a = t.fmt.infBits := fun h => le_antisymm vx h
      have eb : t.fmt.infBits ≤ b → b = t.fmt.infBits := fun h => le_antisymm vy h
      simp only [FloatTy.extended, Fmt.toRat]
      by_cases ha : t.fmt.infBits ≤ a <;> by_cases hb : t.fmt.infBits ≤ b
      · rw [if_pos ha, if_pos hb, ea ha, eb hb]
        cases s <;> cases s' <;> simp <;> linarith
      · rw [if_pos ha, if_neg hb, ea ha]
        have hb' := lb.resolve_left hb
        cases s <;> cases s' <;> simp only [Bool.false_eq_true, if_true, if_false, not_top_lt, EReal.bot_lt_coe, true_iff, false_iff] <;> linarith
      · rw [if_neg ha, if_pos hb, eb hb]
        have ha' := la.resolve_left ha
        cases s <;> cases s' <;> simp only [Bool.false_eq_true, if_true, if_false, not_lt_bot, EReal.coe_lt_top, true_iff, false_iff] <;> linarith
      · rw [if_neg ha, if_neg hb, EReal.coe_lt_coe_iff, Rat.cast_lt]

theorem extended_le {t : FloatTy} {x y : Fl} (vx : t.fmt.Valid x) (vy : t.fmt.Valid y) (nx : x ≠ .nan) (ny : y ≠ .nan) :
    t.extended x ≤ t.extended y ↔ t.fmt.toRat x ≤ t.fmt.toRat y := by
  rw [← not_lt, ← not_lt, extended_lt vy vx ny nx]

theorem extended_eq {t : FloatTy} {x y : Fl} (vx : t.fmt.Valid x) (vy : t.fmt.Valid y) (nx : x ≠ .nan) (ny : y ≠ .nan) :
    t.extended x = t.extended y ↔ t.fmt.toRat x = t.fmt.toRat y := by
  rw [le_antisymm_iff, le_antisymm_iff, extended_le vx vy nx ny, extended_le vy vx ny nx]

theorem lt_extended {t : FloatTy} {x y : Fl} (vx : t.fmt.Valid x) (vy : t.fmt.Valid y) :
    x.lt y = true ↔ x ≠ .nan ∧ y ≠ .nan ∧ t.extended x < t.extended y := by
  cases x with
  | nan => simp [Fl.lt]
  | num s a =>
    cases y with
    | nan => simp [Fl.lt]
    | num s' b =>
      rw [lt_toRat (fmt_p t), decide_eq_true_eq, extended_lt vx vy (by simp) (by simp)]
      simp

theorem feq_extended {t : FloatTy} {x y : Fl} (vx : t.fmt.Valid x) (vy : t.fmt.Valid y) :
    x.feq y = true ↔ x ≠ .nan ∧ y ≠ .nan ∧ t.extended x = t.extended y := by
  cases x with
  | nan => simp [Fl.feq]
  | num s a =>
    cases y with
    | nan => simp [Fl.feq]
    | num s' b =>
      rw [feq_toRat (fmt_p t), decide_eq_true_eq, extended_eq vx vy (by simp) (by simp)]
      simp

theorem storage_base (t : FloatTy) : t.storage.base = t := by cases t <;> rfl
theorem storage_isFloat (t : FloatTy) : t.storage.isFloat = true := by cases t <;> rfl

/-- **C53.** Comparing two float quantities (or a dimensionless one and a number) compares the numbers that are stored: `==` holds if and only
if these are the same extended real number (so `0 == -0`), the ordering is theirs, and NaN is neither equal to nor ordered with anything. -/
theorem C53_compare (P : PlatformFns) {ss : List Storage} {o : OperatorTrait} (ho : o ∈ iterNumericTraits ss) (t : FloatTy) (x y : Fl)
    (vx : t.fmt.Valid x) (vy : t.fmt.Valid y) :
    letI := softPrims P
    (o.name = .partialEq → ∃ r, o.run t.storage t.storage (o.lhs.wrap [x] : Val Fl Magnitude) (o.rhs.wrap [y]) = some (.bool r) ∧
      (r = true ↔ x ≠ .nan ∧ y ≠ .nan ∧ t.extended x = t.extended y)) ∧
    (o.name = .partialOrd → ∃ r, o.run t.storage t.storage (o.lhs.wrap [x] : Val Fl Magnitude) (o.rhs.wrap [y]) = some (.ordering r) ∧
      (r = some .lt ↔ x ≠ .nan ∧ y ≠ .nan ∧ t.extended x < t.extended y) ∧
      (r = some .eq ↔ x ≠ .nan ∧ y ≠ .nan ∧ t.extended x = t.extended y) ∧
      (r = some .gt ↔ x ≠ .nan ∧ y ≠ .nan ∧ t.extended x > t.extended y)) := by
  let := softPrims P
  refine ⟨fun hn => ?_, fun hn => ?_⟩
  · rw [table_run ho, hn]
    refine ⟨x.feq y, ?_, feq_extended vx vy⟩
    simp [rawOp, storageOut, OperatorTrait.result, Prims.eq]
  · rw [table_run ho, hn]
    refine ⟨partialCmp Magnitude t x y, ?_, ?_⟩
    · simp [rawOp, storageOut, storage_isFloat, storage_base, OperatorTrait.result]
    · have l1 := lt_extended vx vy
      have l2 := lt_extended vy vx
      have l3 := feq_extended vx vy
      have e : partialCmp Magnitude t x y = if x.feq y then some .eq else if x.lt y then some .lt else if y.lt x then some .gt else none := rfl
      rw [e]
      by_cases nx : x = .nan
      · subst nx
        have : ∀ z : Fl, Fl.lt z .nan = false := by intro z; cases z <;> rfl
        simp [Fl.feq, Fl.lt]
      by_cases ny : y = .nan
      · subst ny
        have : ∀ z : Fl, Fl.lt z .nan = false := by intro z; cases z <;> rfl
        have : ∀ z : Fl, Fl.feq z .nan = false := by intro z; cases z <;> rfl
        simp [*, Fl.lt]
      simp only [ne_eq, nx, ny, not_false_eq_true, true_and] at l1 l2 l3 ⊢
      rcases lt_trichotomy (t.extended x) (t.extended y) with h | h | h
      · simp [l1.2 h, Bool.eq_false_iff.2 (fun e => h.ne (l3.1 e)), h, h.ne, h.le]
      · simp [l3.2 h, h]
      · simp [l2.2 h, Bool.eq_false_iff.2 (fun e => h.ne (l3.1 e).symm), Bool.eq_false_iff.2 (fun e => h.not_gt (l1.1 e)), h, h.ne', h.le]

section
variable {E : Type} [FieldOps E] [DecidableEq E]

/-- **C53.** `min` and `max` of two float quantities of the same dimension return one of them, the smaller and the greater; a NaN is ignored. -/
theorem C53_min_max (P : PlatformFns) (n : Nat) (t : FloatTy) (d : DimVal E) (x y : Fl) (vx : t.fmt.Valid x) (vy : t.fmt.Valid y) :
    letI := softPrims P
    ∃ z w, (Fn.min).run n [.quantity t.storage d, .quantity t.storage d] [.quantity [x], (.quantity [y] : Val Fl Magnitude)] = some (.quantity [z]) ∧
      (Fn.max).run n [.quantity t.storage d, .quantity t.storage d] [.quantity [x], (.quantity [y] : Val Fl Magnitude)] = some (.quantity [w]) ∧
      (z = x ∨ z = y) ∧ (w = x ∨ w = y) ∧ (x = .nan → z = y ∧ w = y) ∧ (y = .nan → z = x ∧ w = x) ∧
      (x ≠ .nan → y ≠ .nan → t.extended z = min (t.extended x) (t.extended y) ∧ t.extended w = max (t.extended x) (t.extended y)) := by
  let := softPrims P
  obtain ⟨h1, h2, -⟩ := C32_min_max_clamp (K := Fl) (M := Magnitude) n t.storage (storage_isFloat t) d x y y
  refine ⟨x.min y, x.max y, h1, h2, ?_, ?_, ?_, ?_, ?_⟩
  · unfold Fl.min; split <;> [skip; split <;> [skip; split]] <;> simp
  · unfold Fl.max; split <;> [skip; split <;> [skip; split]] <;> simp
  · rintro rfl; exact ⟨rfl, rfl⟩
  · rintro rfl
    cases x <;> exact ⟨rfl, rfl⟩
  · intro nx ny
    have ex : x.isNan = false := by cases x <;> [exact (nx rfl).elim; rfl]
    have ey : y.isNan = false := by cases y <;> [exact (ny rfl).elim; rfl]
    have l1 := lt_extended vx vy
    have l2 := lt_extended vy vx
    simp only [ne_eq, nx, ny, not_false_eq_true, true_and] at l1 l2
    unfold Fl.min Fl.max
    simp only [ex, ey, Bool.false_eq_true, if_false]
    constructor
    · split
      · rename_i h; rw [min_eq_right (l2.1 h).le]
      · rename_i h; rw [min_eq_left (not_lt.1 fun e => h (l2.2 e))]
    · split
      · rename_i h; rw [max_eq_right (l1.1 h).le]
      · rename_i h; rw [max_eq_left (not_lt.1 fun e => h (l1.2 e))]

/-- **C53.** `x.clamp(lo, hi)` panics if and only if not `lo ≤ hi` (in particular if one is NaN). Otherwise it returns one of the three: NaN for
NaN, and else the number of the interval that is next to `x`. -/
theorem C53_clamp (P : PlatformFns) (n : Nat) (t : FloatTy) (d : DimVal E) (x lo hi : Fl) (vx : t.fmt.Valid x) (vl : t.fmt.Valid lo)
    (vh : t.fmt.Valid hi) :
    letI := softPrims P
    ((Fn.clamp).run n [.quantity t.storage d, .quantity t.storage d, .quantity t.storage d]
      [.quantity [x], .quantity [lo], (.quantity [hi] : Val Fl Magnitude)] = none ↔ ¬ t.Le lo hi) ∧
    (t.Le lo hi → ∃ z, (Fn.clamp).run n [.quantity t.storage d, .quantity t.storage d, .quantity t.storage d]
      [.quantity [x], .quantity [lo], (.quantity [hi] : Val Fl Magnitude)] = some (.quantity [z]) ∧ (z = x ∨ z = lo ∨ z = hi) ∧
      (x = .nan → z = .nan) ∧ (x ≠ .nan → t.extended z = max (t.extended lo) (min (t.extended x) (t.extended hi))) ∧
      (t.Le lo x → t.Le x hi → z = x)) := by
  let := softPrims P
  obtain ⟨-, -, h, -⟩ := C32_min_max_clamp (K := Fl) (M := Magnitude) n t.storage (storage_isFloat t) d x lo hi
  have e : (softPrims P).clamp t.storage.base x lo hi = x.clamp lo hi := rfl
  rw [h]
  have guard : (lo.lt hi || lo.feq hi) = true ↔ t.Le lo hi := by
    rw [Bool.or_eq_true, lt_extended vl vh, feq_extended vl vh]
    unfold FloatTy.Le
    rw [le_iff_lt_or_eq]
    tauto
  constructor
  · rw [Option.map_eq_none_iff]
    show x.clamp lo hi = none ↔ _
    unfold Fl.clamp
    rw [← guard]
    split <;> simp_all
  · intro hle
    refine ⟨if x.lt lo then lo else if hi.lt x then hi else x, ?_, ?_, ?_, ?_, ?_⟩
    · show (x.clamp lo hi).map _ = _
      unfold Fl.clamp
      rw [if_pos (guard.2 hle)]
      rfl
    · split <;> [skip; split] <;> simp
    · rintro rfl
      have : ∀ z : Fl, Fl.lt z .nan = false := by intro z; cases z <;> rfl
      rw [this]
      rfl
    · intro nx
      have l1 := lt_extended vx vl
      have l2 := lt_extended vh vx
      simp only [ne_eq, nx, hle.1, hle.2.1, not_false_eq_true, true_and] at l1 l2
      have hlh := hle.2.2
      split
      · rename_i h
        have h := l1.1 h
        rw [min_eq_left (h.le.trans hlh), max_eq_left h.le]
      · rename_i h'
        have h' := not_lt.1 fun e => h' (l1.2 e)
        split
        · rename_i h
          have h := l2.1 h
          rw [min_eq_right h.le, max_eq_right hlh]
        · rename_i h
          have h := not_lt.1 fun e => h (l2.2 e)
          rw [min_eq_left h, max_eq_right h']
    · intro h1 h2
      have c1 : x.lt lo = false := by
        rw [Bool.eq_false_iff]; intro e; exact ((lt_extended vx vl).1 e).2.2.not_ge h1.2.2
      have c2 : hi.lt x = false := by
        rw [Bool.eq_false_iff]; intro e; exact ((lt_extended vh vx).1 e).2.2.not_ge h2.2.2
      rw [c1, c2]
      rfl
end


/-! ### Arithmetic respects the order -/

theorem FloatTy.le_iff {t : FloatTy} {x y : Fl} (vx : t.fmt.Valid x) (vy : t.fmt.Valid y) :
    t.Le x y ↔ x ≠ .nan ∧ y ≠ .nan ∧ t.fmt.toRat x ≤ t.fmt.toRat y := by
  unfold FloatTy.Le
  constructor
  · rintro ⟨a, b, h⟩; exact ⟨a, b, (extended_le vx vy a b).1 h⟩
  · rintro ⟨a, b, h⟩; exact ⟨a, b, (extended_le vx vy a b).2 h⟩

theorem neg_valid {f : Fmt} {x : Fl} (h : f.Valid x) : f.Valid x.neg := by cases x <;> exact h
theorem neg_ne_nan {x : Fl} (h : x ≠ .nan) : x.neg ≠ .nan := by cases x <;> [exact (h rfl).elim; simp [Fl.neg]]
theorem neg_toRat (f : Fmt) (x : Fl) : f.toRat x.neg = -f.toRat x := by
  cases x with
  | nan => simp [Fl.neg, Fmt.toRat]
  | num s n => cases s <;> simp [Fl.neg, Fmt.toRat]

theorem neg_le {t : FloatTy} {x y : Fl} (vx : t.fmt.Valid x) (vy : t.fmt.Valid y) (h : t.Le x y) : t.Le y.neg x.neg := by
  rw [FloatTy.le_iff vx vy] at h
  rw [FloatTy.le_iff (neg_valid vy) (neg_valid vx), neg_toRat, neg_toRat]
  exact ⟨neg_ne_nan h.2.1, neg_ne_nan h.1, neg_le_neg h.2.2⟩

theorem add_le {t : FloatTy} {a b c : Fl} (va : t.fmt.Valid a) (vb : t.fmt.Valid b) (vc : t.fmt.Valid c) (h : t.Le a b)
    (n1 : t.fmt.add a c ≠ .nan) (n2 : t.fmt.add b c ≠ .nan) : t.Le (t.fmt.add a c) (t.fmt.add b c) := by
  have hp := fmt_p t
  have hi := infBits_pos t
  rw [FloatTy.le_iff va vb] at h
  obtain ⟨na, nb, h⟩ := h
  rw [FloatTy.le_iff (Fmt.add_valid _ _ _) (Fmt.add_valid _ _ _)]
  refine ⟨n1, n2, ?_⟩
  have ba := abs_le.1 (toRat_abs hp va)
  have bb := abs_le.1 (toRat_abs hp vb)
  have b1 := abs_le.1 (toRat_abs hp (Fmt.add_valid t.fmt a c))
  have b2 := abs_le.1 (toRat_abs hp (Fmt.add_valid t.fmt b c))
  rcases Fmt.toRat_add va vc n1 with ⟨ia, e⟩ | ⟨ia, ic, e⟩ | ⟨ia, ic, e⟩ <;>
    rcases Fmt.toRat_add vb vc n2 with ⟨ib, e'⟩ | ⟨ib, ic', e'⟩ | ⟨ib, ic', e'⟩ <;> rw [e, e']
  · exact h
  · -- a infinite, b finite, c infinite
    rcases toRat_inf ia with q | q
    · exact absurd (inf_of_toRat hp hi nb (.inl (by linarith))) ib
    · rw [← e', q]; exact b2.1
  · rcases toRat_inf ia with q | q
    · exact absurd (inf_of_toRat hp hi nb (.inl (by linarith))) ib
    · rw [← e', q]; exact b2.1
  · rcases toRat_inf ib with q | q
    · rw [← e, q]; exact b1.2
    · exact absurd (inf_of_toRat hp hi na (.inr (by linarith))) ia
  · exact absurd ic ic'
  · rcases toRat_inf ib with q | q
    · rw [← e, q]; exact b1.2
    · exact absurd (inf_of_toRat hp hi na (.inr (by linarith))) ia
  · exact absurd ic' ic
  · exact Fmt.rd_mono hp (by linarith)

theorem add_comm_fl (f : Fmt) (x y : Fl) : f.add x y = f.add y x := by
  cases x with
  | nan => cases y <;> rfl
  | num s a =>
    cases y with
    | nan => rfl
    | num t b =>
      simp only [Fmt.add, add_comm (f.toRat (.num s a)), Bool.and_comm s t]
      by_cases ha : f.isInf a = true <;> by_cases hb : f.isInf b = true <;> simp [ha, hb]
      by_cases hs : s = t
      · simp [hs]
      · simp [hs, Ne.symm hs]

/-- Is a float greater than zero (and not NaN)? -/
def FloatTy.Pos (t : FloatTy) (x : Fl) : Prop := x ≠ .nan ∧ 0 < t.extended x

theorem zero_valid (t : FloatTy) (s : Bool) : t.fmt.Valid (.num s 0) := Nat.zero_le _

theorem FloatTy.pos_iff {t : FloatTy} {x : Fl} (vx : t.fmt.Valid x) : t.Pos x ↔ x ≠ .nan ∧ 0 < t.fmt.toRat x := by
  unfold FloatTy.Pos
  refine and_congr_right fun nx => ?_
  have e : t.extended (.num false 0) = 0 := by
    have : ¬ t.fmt.infBits ≤ 0 := by have := infBits_pos t; omega
    simp [FloatTy.extended, this, mag_zero]
  have e' : t.fmt.toRat (.num false 0) = 0 := by simp [Fmt.toRat, mag_zero]
  rw [← e, extended_lt (zero_valid t false) vx (by simp) nx, e']

/-- Multiplying by a positive finite number never gives NaN and respects the order. -/
theorem mul_le {t : FloatTy} {a b c : Fl} (va : t.fmt.Valid a) (vb : t.fmt.Valid b) (vc : t.fmt.Valid c) (h : t.Le a b)
    (hc : t.Pos c) (fc : t.extended c ≠ ⊤) : t.Le (t.fmt.mul a c) (t.fmt.mul b c) := by
  have hp := fmt_p t
  have hi := infBits_pos t
  rw [FloatTy.le_iff va vb] at h
  obtain ⟨na, nb, h⟩ := h
  have hc0 := (FloatTy.pos_iff vc).1 hc
  obtain ⟨nc, hc0⟩ := hc0
  cases c with
  | nan => exact (nc rfl).elim
  | num sc c =>
    have hs : sc = false := by
      cases sc
      · rfl
      · have := mag_nonneg t.fmt c
        simp [Fmt.toRat] at hc0
        linarith
    subst hs
    have ic : ¬ t.fmt.infBits ≤ c := by intro e; apply fc; simp [FloatTy.extended, e]
    have ic' : ¬ t.fmt.Inf (.num false c) := fun e => ic (le_of_eq (Eq.symm e))
    have c0 : c ≠ 0 := by rintro rfl; simp [Fmt.toRat, mag_zero] at hc0
    have key : ∀ x, t.fmt.Valid x → x ≠ .nan → t.fmt.mul x (.num false c) ≠ .nan ∧
        ((t.fmt.Inf x ∧ t.fmt.toRat (t.fmt.mul x (.num false c)) = t.fmt.toRat x) ∨
         (¬ t.fmt.Inf x ∧ t.fmt.toRat (t.fmt.mul x (.num false c)) = t.fmt.rd (t.fmt.toRat x * t.fmt.toRat (.num false c)))) := by
      intro x vx nx
      by_cases ix : t.fmt.Inf x
      · cases x with
        | nan => exact (nx rfl).elim
        | num s n =>
          have en : n = t.fmt.infBits := ix
          have : t.fmt.isInf n = true := (isInf_iff vx).2 ix
          simp only [Fmt.mul, this, if_true, c0, if_false]
          exact ⟨by simp, .inl ⟨ix, by cases s <;> simp [Fmt.toRat, en]⟩⟩
      · obtain ⟨k1, k2⟩ := Fmt.toRat_mul vx vc nx nc ix ic'
        exact ⟨k1, .inr ⟨ix, k2⟩⟩
    obtain ⟨k1, k2⟩ := key a va na
    obtain ⟨l1, l2⟩ := key b vb nb
    rw [FloatTy.le_iff (Fmt.mul_valid _ _ _) (Fmt.mul_valid _ _ _)]
    refine ⟨k1, l1, ?_⟩
    have ba := abs_le.1 (toRat_abs hp va)
    have bb := abs_le.1 (toRat_abs hp vb)
    have b1 := abs_le.1 (toRat_abs hp (Fmt.mul_valid t.fmt a (.num false c)))
    have b2 := abs_le.1 (toRat_abs hp (Fmt.mul_valid t.fmt b (.num false c)))
    rcases k2 with ⟨ia, e⟩ | ⟨ia, e⟩ <;> rcases l2 with ⟨ib, e'⟩ | ⟨ib, e'⟩ <;> rw [e, e']
    · exact h
    · rcases toRat_inf ia with q | q
      · exact absurd (inf_of_toRat hp hi nb (.inl (by linarith))) ib
      · rw [← e', q]; exact b2.1
    · rcases toRat_inf ib with q | q
      · rw [← e, q]; exact b1.2
      · exact absurd (inf_of_toRat hp hi na (.inr (by linarith))) ia
    · exact Fmt.rd_mono hp (mul_le_mul_of_nonneg_right h hc0.le)

/-- Dividing by a positive finite number never gives NaN and respects the order. -/
theorem div_le {t : FloatTy} {a b c : Fl} (va : t.fmt.Valid a) (vb : t.fmt.Valid b) (vc : t.fmt.Valid c) (h : t.Le a b)
    (hc : t.Pos c) (fc : t.extended c ≠ ⊤) : t.Le (t.fmt.div a c) (t.fmt.div b c) := by
  have hp := fmt_p t
  have hi := infBits_pos t
  rw [FloatTy.le_iff va vb] at h
  obtain ⟨na, nb, h⟩ := h
  have hc0 := (FloatTy.pos_iff vc).1 hc
  obtain ⟨nc, hc0⟩ := hc0
  cases c with
  | nan => exact (nc rfl).elim
  | num sc c =>
    have hs : sc = false := by
      cases sc
      · rfl
      · have := mag_nonneg t.fmt c
        simp [Fmt.toRat] at hc0
        linarith
    subst hs
    have ic : ¬ t.fmt.infBits ≤ c := by intro e; apply fc; simp [FloatTy.extended, e]
    have ic' : ¬ t.fmt.Inf (.num false c) := fun e => ic (le_of_eq (Eq.symm e))
    have icb : t.fmt.isInf c = false := by rw [← Bool.not_eq_true, isInf_iff vc]; exact ic'
    have c0 : c ≠ 0 := by rintro rfl; simp [Fmt.toRat, mag_zero] at hc0
    have key : ∀ x, t.fmt.Valid x → x ≠ .nan → t.fmt.div x (.num false c) ≠ .nan ∧
        ((t.fmt.Inf x ∧ t.fmt.toRat (t.fmt.div x (.num false c)) = t.fmt.toRat x) ∨
         (¬ t.fmt.Inf x ∧ t.fmt.toRat (t.fmt.div x (.num false c)) = t.fmt.rd (t.fmt.toRat x / t.fmt.toRat (.num false c)))) := by
      intro x vx nx
      by_cases ix : t.fmt.Inf x
      · cases x with
        | nan => exact (nx rfl).elim
        | num s n =>
          have en : n = t.fmt.infBits := ix
          have : t.fmt.isInf n = true := (isInf_iff vx).2 ix
          simp only [Fmt.div, this, if_true, icb, Bool.false_eq_true, if_false]
          exact ⟨by simp, .inl ⟨ix, by cases s <;> simp [Fmt.toRat, en]⟩⟩
      · obtain ⟨k1, k2⟩ := Fmt.toRat_div vx vc nx nc ix ic' hc0.ne'
        exact ⟨k1, .inr ⟨ix, k2⟩⟩
    obtain ⟨k1, k2⟩ := key a va na
    obtain ⟨l1, l2⟩ := key b vb nb
    rw [FloatTy.le_iff (Fmt.div_valid _ _ _) (Fmt.div_valid _ _ _)]
    refine ⟨k1, l1, ?_⟩
    have ba := abs_le.1 (toRat_abs hp va)
    have bb := abs_le.1 (toRat_abs hp vb)
    have b1 := abs_le.1 (toRat_abs hp (Fmt.div_valid t.fmt a (.num false c)))
    have b2 := abs_le.1 (toRat_abs hp (Fmt.div_valid t.fmt b (.num false c)))
    rcases k2 with ⟨ia, e⟩ | ⟨ia, e⟩ <;> rcases l2 with ⟨ib, e'⟩ | ⟨ib, e'⟩ <;> rw [e, e']
    · exact h
    · rcases toRat_inf ia with q | q
      · exact absurd (inf_of_toRat hp hi nb (.inl (by linarith))) ib
      · rw [← e', q]; exact b2.1
    · rcases toRat_inf ib with q | q
      · rw [← e, q]; exact b1.2
      · exact absurd (inf_of_toRat hp hi na (.inr (by linarith))) ia
    · exact Fmt.rd_mono hp (div_le_div_of_nonneg_right h hc0.le)

/-- A generated operator applied to two float operands. -/
theorem float_run (P : PlatformFns) {ss : List Storage} {o : OperatorTrait} (ho : o ∈ iterNumericTraits ss) (t : FloatTy) (x y : Fl) :
    letI := softPrims P
    (o.name = .add → o.run t.storage t.storage (o.lhs.wrap [x] : Val Fl Magnitude) (o.rhs.wrap [y]) = some (.quantity [t.fmt.add x y])) ∧
    (o.name = .sub → o.run t.storage t.storage (o.lhs.wrap [x] : Val Fl Magnitude) (o.rhs.wrap [y]) = some (.quantity [t.fmt.add x y.neg])) ∧
    (o.name = .mul → o.run t.storage t.storage (o.lhs.wrap [x] : Val Fl Magnitude) (o.rhs.wrap [y]) = some (.quantity [t.fmt.mul x y])) ∧
    (o.name = .div → o.run t.storage t.storage (o.lhs.wrap [x] : Val Fl Magnitude) (o.rhs.wrap [y]) = some (.quantity [t.fmt.div x y])) := by
  let := softPrims P
  refine ⟨fun hn => ?_, fun hn => ?_, fun hn => ?_, fun hn => ?_⟩ <;> rw [table_run ho, hn] <;>
    simp [rawOp, storageOut, storage_isFloat, storage_base, Raw.zip, arith, OperatorTrait.result, hn, Trait.hasOutput] <;> rfl

/-- **C53.** Sums and differences of float quantities respect the order in each argument: if `a ≤ b` then `a + c ≤ b + c`, `c + a ≤ c + b`,
`a - c ≤ b - c` and `c - b ≤ c - a`, for the rounded results, unless one of the two is NaN (which happens only for differences of
infinities). -/
theorem C53_add_sub (P : PlatformFns) {ss : List Storage} {o : OperatorTrait} (ho : o ∈ iterNumericTraits ss) (t : FloatTy) (a b c : Fl)
    (va : t.fmt.Valid a) (vb : t.fmt.Valid b) (vc : t.fmt.Valid c) (h : t.Le a b) :
    letI := softPrims P
    (o.name = .add →
      (∃ x y, o.run t.storage t.storage (o.lhs.wrap [a] : Val Fl Magnitude) (o.rhs.wrap [c]) = some (.quantity [x]) ∧
        o.run t.storage t.storage (o.lhs.wrap [b] : Val Fl Magnitude) (o.rhs.wrap [c]) = some (.quantity [y]) ∧
        (x ≠ .nan → y ≠ .nan → t.Le x y)) ∧
      (∃ x y, o.run t.storage t.storage (o.lhs.wrap [c] : Val Fl Magnitude) (o.rhs.wrap [a]) = some (.quantity [x]) ∧
        o.run t.storage t.storage (o.lhs.wrap [c] : Val Fl Magnitude) (o.rhs.wrap [b]) = some (.quantity [y]) ∧
        (x ≠ .nan → y ≠ .nan → t.Le x y))) ∧
    (o.name = .sub →
      (∃ x y, o.run t.storage t.storage (o.lhs.wrap [a] : Val Fl Magnitude) (o.rhs.wrap [c]) = some (.quantity [x]) ∧
        o.run t.storage t.storage (o.lhs.wrap [b] : Val Fl Magnitude) (o.rhs.wrap [c]) = some (.quantity [y]) ∧
        (x ≠ .nan → y ≠ .nan → t.Le x y)) ∧
      (∃ x y, o.run t.storage t.storage (o.lhs.wrap [c] : Val Fl Magnitude) (o.rhs.wrap [b]) = some (.quantity [x]) ∧
        o.run t.storage t.storage (o.lhs.wrap [c] : Val Fl Magnitude) (o.rhs.wrap [a]) = some (.quantity [y]) ∧
        (x ≠ .nan → y ≠ .nan → t.Le x y))) := by
  have run := fun x y => float_run P ho t x y
  refine ⟨fun hn => ⟨⟨_, _, (run a c).1 hn, (run b c).1 hn, add_le va vb vc h⟩, ⟨_, _, (run c a).1 hn, (run c b).1 hn, ?_⟩⟩,
    fun hn => ⟨⟨_, _, (run a c).2.1 hn, (run b c).2.1 hn, add_le va vb (neg_valid vc) h⟩, ⟨_, _, (run c b).2.1 hn, (run c a).2.1 hn, ?_⟩⟩⟩
  · rw [add_comm_fl _ c a, add_comm_fl _ c b]
    exact add_le va vb vc h
  · rw [add_comm_fl _ c a.neg, add_comm_fl _ c b.neg]
    exact add_le (neg_valid vb) (neg_valid va) vc (neg_le va vb h)

/-- **C53.** Multiplying with and dividing by a positive finite quantity respects the order of the rounded results, and never gives NaN. -/
theorem C53_mul_div (P : PlatformFns) {ss : List Storage} {o : OperatorTrait} (ho : o ∈ iterNumericTraits ss) (t : FloatTy) (a b c : Fl)
    (va : t.fmt.Valid a) (vb : t.fmt.Valid b) (vc : t.fmt.Valid c) (h : t.Le a b) (hc : t.Pos c) (fc : t.extended c ≠ ⊤) :
    letI := softPrims P
    (o.name = .mul ∨ o.name = .div →
      ∃ x y, o.run t.storage t.storage (o.lhs.wrap [a] : Val Fl Magnitude) (o.rhs.wrap [c]) = some (.quantity [x]) ∧
        o.run t.storage t.storage (o.lhs.wrap [b] : Val Fl Magnitude) (o.rhs.wrap [c]) = some (.quantity [y]) ∧ t.Le x y) ∧
    (o.name = .mul →
      ∃ x y, o.run t.storage t.storage (o.lhs.wrap [c] : Val Fl Magnitude) (o.rhs.wrap [a]) = some (.quantity [x]) ∧
        o.run t.storage t.storage (o.lhs.wrap [c] : Val Fl Magnitude) (o.rhs.wrap [b]) = some (.quantity [y]) ∧ t.Le x y) := by
  have run := fun x y => float_run P ho t x y
  refine ⟨fun hn => ?_, fun hn => ?_⟩
  · rcases hn with hn | hn
    · exact ⟨_, _, (run a c).2.2.1 hn, (run b c).2.2.1 hn, mul_le va vb vc h hc fc⟩
    · exact ⟨_, _, (run a c).2.2.2 hn, (run b c).2.2.2 hn, div_le va vb vc h hc fc⟩
  · refine ⟨_, _, (run c a).2.2.1 hn, (run c b).2.2.1 hn, ?_⟩
    rw [Fmt.mul_comm _ c a (infBits_pos t), Fmt.mul_comm _ c b (infBits_pos t)]
    exact mul_le va vb vc h hc fc

section
variable {E : Type} [FieldOps E] [DecidableEq E]

/-- **C53.** Creating quantities in a unit and reading them out in a unit respects the order, in floating-point arithmetic, for every unit with a
positive finite conversion factor: if `x ≤ y` then `x * unit ≤ y * unit`, and if `q ≤ r` then `q.value_in(unit) ≤ r.value_in(unit)`. -/
theorem C53_units (P : PlatformFns) (n : Nat) (k : UnitKind) (t : FloatTy) (d d' : DimVal E) (m : Magnitude) (x y : Fl) (vx : t.fmt.Valid x)
    (vy : t.fmt.Valid y) (h : t.Le x y) (vm : t.fmt.Valid ((softPrims P).into t m)) (positive : t.Pos ((softPrims P).into t m))
    (finite : t.extended ((softPrims P).into t m) ≠ ⊤) :
    letI := softPrims P
    (∃ q r, (Fn.unitMul).run n [.bare t.storage, k.ty d] [(.bare [x] : Val Fl Magnitude), k.val m] = some (.quantity [q]) ∧
      (Fn.unitMul).run n [.bare t.storage, k.ty d] [(.bare [y] : Val Fl Magnitude), k.val m] = some (.quantity [r]) ∧ t.Le q r) ∧
    (∃ v w, (Fn.valueIn).run n [.quantity t.storage d, k.ty d'] [(.quantity [x] : Val Fl Magnitude), k.val m] = some (.bare [v]) ∧
      (Fn.valueIn).run n [.quantity t.storage d, k.ty d'] [(.quantity [y] : Val Fl Magnitude), k.val m] = some (.bare [w]) ∧ t.Le v w) := by
  let := softPrims P
  have hb := storage_base t
  refine ⟨⟨_, _, (C22_same n k t.storage d m [x]).1, (C22_same n k t.storage d m [y]).1, ?_⟩,
    ⟨_, _, valueIn_run n k (storage_isFloat t) d d' m [x], valueIn_run n k (storage_isFloat t) d d' m [y], ?_⟩⟩
  · rw [hb]; exact mul_le vx vy vm h positive finite
  · rw [hb]; exact div_le vx vy vm h positive finite
end


/-! ### The SI units -/

/-- A float with a positive value is positive and finite. -/
theorem pos_of_val {t : FloatTy} {x : Fl} {q : ℚ} (h : t.fmt.val x = some q) (hq : 0 < q) :
    t.fmt.Valid x ∧ t.Pos x ∧ t.extended x ≠ ⊤ := by
  cases x with
  | nan => simp [Fmt.val] at h
  | num s n =>
    simp only [Fmt.val] at h
    split at h
    · simp at h
    · rename_i hn
      simp only [Option.some.injEq] at h
      have e : t.extended (.num s n) = ((q : ℝ) : EReal) := by
        simp only [FloatTy.extended, if_neg hn, h]
      refine ⟨by simp only [Fmt.Valid]; omega, ⟨by simp, ?_⟩, ?_⟩
      · rw [e]; exact_mod_cast hq
      · rw [e]; exact EReal.coe_ne_top _

set_option maxRecDepth 10000 in
theorem siUnits_positive : ∀ r ∈ siUnits, 0 < r.value := by decide +kernel

/-- **C53, for the SI module.** In binary64, for every unit of the `si` module, under any of its names and with any of its prefixes, creating
quantities in the unit and reading them out in it respects the order of the numbers: no two numbers change places by rounding. -/
theorem C53_si (std : Bool) (powf : Fl → Fl → Fl) (P : PlatformFns) (hP : P.lib = buildLib std powf) :
    ∃ tokens statements defs,
      lex siLines = some tokens ∧ parseSystem (ReadExponent.rational Int) tokens = some statements ∧
      @unitSystem Int Magnitude _ Number.magnitude _ (magOpsInt P.lib) Prefix.factor tokens = .done (defs, []) ∧
      ∀ u ∈ statements.units, ∀ pre ∈ none :: u.prefixes.map some, ∀ base ∈ u.name :: u.aliases,
        ∃ U ∈ defs.units, U.name = (siPrefix? pre).name ++ base ∧
          ∀ (n : Nat) (k : UnitKind) (d d' : DimVal Int) (x y : Fl), f64Fmt.Valid x → f64Fmt.Valid y → FloatTy.Le .f64 x y →
            letI := softPrims P
            (∃ q r, (Fn.unitMul).run n [.bare .f64, k.ty d] [(.bare [x] : Val Fl Magnitude), k.val U.mag] = some (.quantity [q]) ∧
              (Fn.unitMul).run n [.bare .f64, k.ty d] [(.bare [y] : Val Fl Magnitude), k.val U.mag] = some (.quantity [r]) ∧ FloatTy.Le .f64 q r) ∧
            (∃ v w, (Fn.valueIn).run n [.quantity .f64 d, k.ty d'] [(.quantity [x] : Val Fl Magnitude), k.val U.mag] = some (.bare [v]) ∧
              (Fn.valueIn).run n [.quantity .f64 d, k.ty d'] [(.quantity [y] : Val Fl Magnitude), k.val U.mag] = some (.bare [w]) ∧
              FloatTy.Le .f64 v w) := by
  obtain ⟨tokens, statements, defs, h1, h2, h3, -, -, h6, -⟩ := C46_si_float std powf
  rw [← hP] at h3
  refine ⟨tokens, statements, defs, h1, h2, h3, ?_⟩
  intro u hu pre hpre base hbase
  obtain ⟨r, hr, -, hx⟩ := h6 u hu
  obtain ⟨U, hU, b1, -, b3, -⟩ := hx pre hpre base hbase
  refine ⟨U, hU, b1, ?_⟩
  intro n k d d' x y vx vy h
  rw [← hP] at b3
  obtain ⟨q, hq, he⟩ := b3
  have hv : (0 : ℚ) < 10 ^ (siPrefix? pre).power * r.value := mul_pos (by positivity) (siUnits_positive r hr)
  rw [abs_of_pos hv] at he
  have hsmall : ((if std then 17 else 34 : ℚ) / 2 ^ 52) < 1 := by cases std <;> norm_num
  have hq0 : 0 < q := by
    have := (abs_le.1 he).1
    have := mul_lt_mul_of_pos_right hsmall hv
    linarith
  obtain ⟨p1, p2, p3⟩ := pos_of_val (t := .f64) (x := U.mag.intoF64 P.lib) hq hq0
  exact C53_units P n k .f64 d d' U.mag x y vx vy h p1 p2 p3

/-! ### Laws of exact arithmetic that survive rounding -/

theorem one_toRat (t : FloatTy) : t.fmt.val (t.fmt.ofInt 1) = some 1 := by
  cases t
  · show f32Fmt.val (f32Fmt.ofInt 1) = some 1; decide +kernel
  · show f64Fmt.val (f64Fmt.ofInt 1) = some 1; decide +kernel

/-- **C53.** For two float quantities (or numbers) with stored values `x` and `y`: sums and products do not depend on the order of the operands
(bit for bit), subtracting is adding the negative, a finite number minus itself is `+0`, and multiplying with or dividing by the number one
changes nothing. -/
theorem C53_laws (P : PlatformFns) {ss : List Storage} {o : OperatorTrait} (ho : o ∈ iterNumericTraits ss) {o' : OperatorTrait}
    (ho' : o' ∈ iterNumericTraits ss) (t : FloatTy) (x y : Fl) (vx : t.fmt.Valid x) :
    letI := softPrims P
    (o.name = o'.name → o.name = .add ∨ o.name = .mul → o.run t.storage t.storage (o.lhs.wrap [x] : Val Fl Magnitude) (o.rhs.wrap [y]) =
      o'.run t.storage t.storage (o'.lhs.wrap [y] : Val Fl Magnitude) (o'.rhs.wrap [x])) ∧
    (o.name = .sub → o'.name = .add → o.run t.storage t.storage (o.lhs.wrap [x] : Val Fl Magnitude) (o.rhs.wrap [y]) =
      o'.run t.storage t.storage (o'.lhs.wrap [x] : Val Fl Magnitude) (o'.rhs.wrap [(softPrims P).neg t y])) ∧
    (o.name = .sub → t.fmt.val x ≠ none →
      o.run t.storage t.storage (o.lhs.wrap [x] : Val Fl Magnitude) (o.rhs.wrap [x]) = some (.quantity [.num false 0])) ∧
    (o.name = .mul ∨ o.name = .div →
      o.run t.storage t.storage (o.lhs.wrap [x] : Val Fl Magnitude) (o.rhs.wrap [t.fmt.ofInt 1]) = some (.quantity [x])) := by
  let := softPrims P
  have hp := fmt_p t
  have hi := infBits_pos t
  refine ⟨fun hn hc => ?_, fun h1 h2 => ?_, fun hn hf => ?_, fun hn => ?_⟩
  · rcases hc with hc | hc
    · rw [(float_run P ho t x y).1 hc, (float_run P ho' t y x).1 (hn ▸ hc), add_comm_fl]
    · rw [(float_run P ho t x y).2.2.1 hc, (float_run P ho' t y x).2.2.1 (hn ▸ hc), Fmt.mul_comm _ x y hi]
  · rw [(float_run P ho t x y).2.1 h1, (float_run P ho' t x _).1 h2]
    rfl
  · rw [(float_run P ho t x x).2.1 hn]
    cases x with
    | nan => simp [Fmt.val] at hf
    | num s n =>
      have hnf : ¬ t.fmt.infBits ≤ n := by intro e; apply hf; simp [Fmt.val, e]
      have e : t.fmt.isInf n = false := by simpa [Fmt.isInf] using hnf
      have e2 : t.fmt.toRat (.num s n) + t.fmt.toRat (.num (!s) n) = 0 := by cases s <;> simp [Fmt.toRat]
      simp only [Fl.neg, Fmt.add, e, e2, Bool.false_eq_true, if_false, if_true]
      cases s <;> rfl
  · have one := one_toRat t
    cases h1 : t.fmt.ofInt 1 with
    | nan => rw [h1] at one; simp [Fmt.val] at one
    | num s1 n1 =>
      rw [h1] at one
      have hs1 : s1 = false := by
        have : s1 = decide ((1 : Int) < 0) := by
          have := h1; simp only [Fmt.ofInt, Fl.num.injEq] at this; exact this.1.symm
        simpa using this
      subst hs1
      simp only [Fmt.val, Bool.false_eq_true, if_false] at one
      split at one
      · simp at one
      rename_i hn1
      simp only [Option.some.injEq] at one
      have e1 : t.fmt.isInf n1 = false := by simpa [Fmt.isInf] using hn1
      have z1 : n1 ≠ 0 := by rintro rfl; rw [mag_zero] at one; norm_num at one
      have hx : ∀ s : Bool, (s != false) = s := by intro s; cases s <;> rfl
      have key : t.fmt.mul x (.num false n1) = x ∧ t.fmt.div x (.num false n1) = x := by
        cases x with
        | nan => exact ⟨rfl, rfl⟩
        | num s n =>
          by_cases hinf : t.fmt.isInf n = true
          · have : n = t.fmt.infBits := (isInf_iff vx).1 hinf
            simp only [Fmt.mul, Fmt.div, hinf, e1, if_true, Bool.false_eq_true, if_false, z1, hx]
            rw [← this]
            exact ⟨rfl, rfl⟩
          · simp only [Fmt.mul, Fmt.div, hinf, e1, Bool.false_eq_true, if_false, z1, hx, one, mul_one, div_one,
              round_mag t.fmt hp (n := n) vx, and_self]
      rcases hn with hn | hn
      · rw [(float_run P ho t x _).2.2.1 hn, key.1]
      · rw [(float_run P ho t x _).2.2.2 hn, key.2]

-- The hypotheses are met: 1.0 <= 2.0 in binary64, and both are positive and finite.
example : f64Fmt.Valid (f64Fmt.ofInt 1) ∧ f64Fmt.Valid (f64Fmt.ofInt 2) ∧ FloatTy.Le .f64 (f64Fmt.ofInt 1) (f64Fmt.ofInt 2) ∧
    FloatTy.Pos .f64 (f64Fmt.ofInt 2) ∧ FloatTy.extended .f64 (f64Fmt.ofInt 2) ≠ ⊤ := by
  have h1 : f64Fmt.val (f64Fmt.ofInt 1) = some 1 := by decide +kernel
  have h2 : f64Fmt.val (f64Fmt.ofInt 2) = some 2 := by decide +kernel
  obtain ⟨a1, a2, -⟩ := pos_of_val (t := .f64) h1 (by norm_num)
  obtain ⟨b1, b2, b3⟩ := pos_of_val (t := .f64) h2 (by norm_num)
  refine ⟨a1, b1, ?_, b2, b3⟩
  rw [FloatTy.le_iff a1 b1]
  exact ⟨a2.1, b2.1, by decide +kernel⟩

end Diman
