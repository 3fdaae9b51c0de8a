import Verif.Spec.Ratio
import Mathlib.Data.Rat.Lemmas
import Mathlib.Data.Int.GCD
import Mathlib.Tactic.Ring
import Mathlib.Tactic.FieldSimp
import Mathlib.Tactic.Linarith
import Mathlib.Tactic.NormNum
/-! Lemmas about `Ratio`. -/
namespace Diman

theorem i64_some {x y : Int} (h : i64 x = some y) : y = x ∧ IsI64 x := by
  unfold i64 at h; split at h
  · rename_i hr; injection h with h; exact ⟨h.symm, hr⟩
  · cases h

theorem i64_of {x : Int} (h : IsI64 x) : i64 x = some x := by
  unfold i64; rw [if_pos]; exact h

theorem i64_none {x : Int} (h : ¬ IsI64 x) : i64 x = none := by
  unfold i64; rw [if_neg]; exact h

theorem i64_eq_some {x y : Int} : i64 x = some y ↔ y = x ∧ IsI64 x :=
  ⟨i64_some, fun ⟨h, h'⟩ => by subst h; exact i64_of h'⟩

theorem FitsAbs.isI64 {x : Int} (h : FitsAbs x) : IsI64 x := by
  unfold FitsAbs at h; unfold IsI64 i64Min; unfold i64Max at *; omega

/-- The Euclid loop computes the gcd up to sign. -/
theorem gcdLoop_some {a b r : Int} (h : gcdLoop a b = some r) : r.natAbs = Int.gcd a b := by
  fun_induction gcdLoop a b with
  | case1 a => injection h with h; subst h; simp
  | case2 a b hb hc => cases h
  | case3 a b hb hc ih =>
    rw [ih h, Int.gcd_comm a b]
    simp only [Int.gcd, Int.natAbs_tmod]
    rw [Nat.gcd_comm, ← Nat.gcd_rec]

theorem FitsAbs.iff {x : Int} : FitsAbs x ↔ x.natAbs ≤ 9223372036854775807 := by
  unfold FitsAbs i64Max; omega

theorem gcdLoop_isSome {a b : Int} (ha : FitsAbs a) (hb : FitsAbs b) :
    ∃ r, gcdLoop a b = some r := by
  fun_induction gcdLoop a b with
  | case1 a => exact ⟨_, rfl⟩
  | case2 a b hb hc => exact absurd ha (by rw [hc.1]; decide)
  | case3 a b hb' hc ih =>
    apply ih hb
    have h1 := Int.natAbs_tmod a b
    have h3 : (a.tmod b).natAbs ≤ a.natAbs := by rw [h1]; exact Nat.mod_le _ _
    rw [FitsAbs.iff] at *; omega

theorem gcd_some {a b g : Int} (h : gcd a b = some g) : g = (Int.gcd a b : Int) := by
  unfold gcd at h
  cases hl : gcdLoop a b with
  | none => simp [hl] at h
  | some r =>
    simp only [hl, Option.bind_eq_bind, Option.bind_some] at h
    rw [(i64_some h).1, gcdLoop_some hl]

theorem gcd_isSome {a b : Int} (ha : FitsAbs a) (hb : FitsAbs b) :
    gcd a b = some (Int.gcd a b : Int) := by
  obtain ⟨r, hr⟩ := gcdLoop_isSome ha hb
  unfold gcd
  simp only [hr, Option.bind_eq_bind, Option.bind_some]
  rw [gcdLoop_some hr]
  apply i64_of
  have h1 : Int.gcd a b ≤ 9223372036854775807 := by
    rcases Nat.eq_zero_or_pos a.natAbs with h | h
    · have : a = 0 := by omega
      subst this; simp; exact FitsAbs.iff.1 hb
    · exact le_trans (Nat.gcd_le_left _ h) (FitsAbs.iff.1 ha)
  unfold IsI64 i64Min i64Max; omega

theorem i64Div_some {a b c : Int} (h : i64Div a b = some c) : b ≠ 0 ∧ c = a.tdiv b ∧ IsI64 c := by
  unfold i64Div at h
  split at h
  · cases h
  · obtain ⟨h1, h2⟩ := i64_some h
    exact ⟨by assumption, h1, h1 ▸ h2⟩

/-- Everything `Ratio::new` guarantees when it returns. -/
theorem Ratio.new_some {n d : Int} {r : Ratio} (h : Ratio.new n d = some r) :
    0 < Int.gcd n d ∧ n = r.num * (Int.gcd n d : Int) ∧ d = r.denom * (Int.gcd n d : Int) ∧
      Int.gcd r.num r.denom = 1 ∧ r.InRange := by
  unfold Ratio.new at h
  cases hg : gcd n d with
  | none => simp [hg] at h
  | some g =>
    have hg' := gcd_some hg
    simp only [hg, Option.bind_eq_bind, Option.bind_some] at h
    cases hn : i64Div n g with
    | none => simp [hn] at h
    | some n' =>
      cases hd : i64Div d g with
      | none => simp [hn, hd] at h
      | some d' =>
        simp [hn, hd] at h
        subst h
        obtain ⟨g0, hn1, hn2⟩ := i64Div_some hn
        obtain ⟨_, hd1, hd2⟩ := i64Div_some hd
        have hpos : 0 < Int.gcd n d := by omega
        have e1 : n = n' * (Int.gcd n d : Int) := by
          rw [hn1, hg']
          exact (Int.tdiv_mul_cancel (Int.gcd_dvd_left ..)).symm
        have e2 : d = d' * (Int.gcd n d : Int) := by
          rw [hd1, hg']
          exact (Int.tdiv_mul_cancel (Int.gcd_dvd_right ..)).symm
        refine ⟨hpos, e1, e2, ?_, hn2, hd2⟩
        have := Int.gcd_mul_right n' (Int.gcd n d : Int) d'
        rw [← e1, ← e2] at this
        simp only [Int.natAbs_natCast] at this
        show Int.gcd n' d' = 1
        exact (Nat.mul_eq_right hpos.ne').1 this.symm

theorem Ratio.new_val {n d : Int} {r : Ratio} (h : Ratio.new n d = some r) :
    r.val = (n : ℚ) / (d : ℚ) := by
  obtain ⟨hg, hn, hd, _, _⟩ := new_some h
  unfold Ratio.val
  generalize Int.gcd n d = g at hg hn hd
  have : (g : ℚ) ≠ 0 := by exact_mod_cast hg.ne'
  rw [hn, hd]; push_cast
  rw [mul_div_mul_right _ _ this]

theorem Ratio.new_defined {n d : Int} {r : Ratio} (h : Ratio.new n d = some r) (hd : d ≠ 0) :
    r.Defined := by
  obtain ⟨_, _, h2, _⟩ := new_some h
  intro h0; apply hd; rw [h2, h0]; simp

theorem Ratio.new_pos {n d : Int} {r : Ratio} (h : Ratio.new n d = some r) (hd : 0 < d) :
    r.Canonical := by
  obtain ⟨h0, _, h2, h3, _⟩ := new_some h
  refine ⟨?_, h3⟩
  by_contra hc
  have : r.denom * (Int.gcd n d : Int) ≤ 0 :=
    Int.mul_nonpos_of_nonpos_of_nonneg (by omega) (by omega)
  omega

/-- `Ratio::new` never refuses when both components fit (also after `abs`) and are not both zero. -/
theorem Ratio.new_isSome {n d : Int} (hn : FitsAbs n) (hd : FitsAbs d) (h0 : n ≠ 0 ∨ d ≠ 0) :
    ∃ r, Ratio.new n d = some r := by
  unfold Ratio.new
  have hg : (Int.gcd n d : Int) ≠ 0 := by
    simp [Int.gcd_eq_zero_iff]; omega
  have key : ∀ x : Int, FitsAbs x → ∃ y, i64Div x (Int.gcd n d : Int) = some y := by
    intro x hx
    refine ⟨x.tdiv (Int.gcd n d : Int), ?_⟩
    unfold i64Div
    rw [if_neg hg]
    apply i64_of
    apply FitsAbs.isI64
    rw [FitsAbs.iff] at *
    rw [Int.natAbs_tdiv]
    exact le_trans (Nat.div_le_self _ _) hx
  obtain ⟨y, hy⟩ := key n hn
  obtain ⟨z, hz⟩ := key d hd
  exact ⟨⟨y, z⟩, by simp [gcd_isSome hn hd, hy, hz]⟩

/-- Canonical fractions are determined by their value. -/
theorem Ratio.canonical_ext {a b : Ratio} (ha : a.Canonical) (hb : b.Canonical)
    (h : a.val = b.val) : a = b := by
  obtain ⟨a1, a2⟩ := ha
  obtain ⟨b1, b2⟩ := hb
  unfold Ratio.val at h
  have hh := (Rat.div_int_inj a1 b1 (by simpa [Nat.Coprime, Int.gcd] using a2)
    (by simpa [Nat.Coprime, Int.gcd] using b2) h)
  cases a; cases b; simp_all

theorem Ratio.add_some {a b r : Ratio} (h : a.add b = some r) :
    Ratio.new (a.num * b.denom + b.num * a.denom) (a.denom * b.denom) = some r := by
  unfold Ratio.add at h
  simp only [Option.bind_eq_bind, Option.bind_eq_some_iff] at h
  obtain ⟨x, hx, y, hy, n, hn, d, hd, h⟩ := h
  rw [(i64_some hx).1, (i64_some hy).1] at hn
  rw [(i64_some hn).1, (i64_some hd).1] at h
  exact h

theorem Ratio.mul_some {a b r : Ratio} (h : a.mul b = some r) :
    Ratio.new (a.num * b.num) (a.denom * b.denom) = some r := by
  unfold Ratio.mul at h
  simp only [Option.bind_eq_bind, Option.bind_eq_some_iff] at h
  obtain ⟨n, hn, d, hd, h⟩ := h
  rw [(i64_some hn).1, (i64_some hd).1] at h
  exact h

theorem Ratio.neg_some {a r : Ratio} (h : a.neg = some r) :
    r = ⟨-a.num, a.denom⟩ ∧ IsI64 (-a.num) := by
  unfold Ratio.neg at h
  simp only [Option.bind_eq_bind, Option.bind_eq_some_iff] at h
  obtain ⟨n, hn, h⟩ := h
  obtain ⟨h1, h2⟩ := i64_some hn
  subst h1; injection h with h; exact ⟨h.symm, h2⟩

theorem Ratio.sub_some {a b r : Ratio} (h : a.sub b = some r) :
    a.add ⟨-b.num, b.denom⟩ = some r := by
  unfold Ratio.sub at h
  simp only [Option.bind_eq_bind, Option.bind_eq_some_iff] at h
  obtain ⟨n, hn, h⟩ := h
  rw [(neg_some hn).1] at h; exact h

theorem Ratio.neg_val {a r : Ratio} (h : a.neg = some r) : r.val = -a.val := by
  rw [(neg_some h).1]; simp [Ratio.val, neg_div]

theorem Ratio.add_val {a b r : Ratio} (ha : a.Defined) (hb : b.Defined) (h : a.add b = some r) :
    r.val = a.val + b.val := by
  rw [new_val (add_some h)]
  have h1 : (a.denom : ℚ) ≠ 0 := by exact_mod_cast ha
  have h2 : (b.denom : ℚ) ≠ 0 := by exact_mod_cast hb
  unfold Ratio.val; push_cast; field_simp

theorem Ratio.mul_val {a b r : Ratio} (h : a.mul b = some r) : r.val = a.val * b.val := by
  rw [new_val (mul_some h)]
  unfold Ratio.val; push_cast; rw [div_mul_div_comm]

theorem Ratio.add_defined {a b r : Ratio} (ha : a.Defined) (hb : b.Defined) (h : a.add b = some r) :
    r.Defined := new_defined (add_some h) (mul_ne_zero ha hb)

theorem Ratio.mul_defined {a b r : Ratio} (ha : a.Defined) (hb : b.Defined) (h : a.mul b = some r) :
    r.Defined := new_defined (mul_some h) (mul_ne_zero ha hb)

theorem Ratio.add_canonical {a b r : Ratio} (ha : a.Canonical) (hb : b.Canonical)
    (h : a.add b = some r) : r.Canonical := new_pos (add_some h) (mul_pos ha.1 hb.1)

theorem Ratio.mul_canonical {a b r : Ratio} (ha : a.Canonical) (hb : b.Canonical)
    (h : a.mul b = some r) : r.Canonical := new_pos (mul_some h) (mul_pos ha.1 hb.1)

theorem Ratio.neg_canonical {a r : Ratio} (ha : a.Canonical) (h : a.neg = some r) :
    r.Canonical := by
  rw [(neg_some h).1]; exact ⟨ha.1, by simpa using ha.2⟩

theorem Ratio.Canonical.defined {a : Ratio} (h : a.Canonical) : a.Defined := by
  have := h.1; unfold Ratio.Defined; omega

end Diman
