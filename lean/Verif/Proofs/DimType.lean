import Verif.Spec.DimType
import Verif.Proofs.Exponent
import Verif.Proofs.Dims
/-! Lemmas about the generated dimension type. -/
set_option linter.unusedSectionVars false
namespace Diman
open LawfulExponent

/-- The field operations compute what they should, on the rationals denoted; they preserve normal forms. -/
class LawfulFieldOps (E : Type) [Exponent E] [LawfulExponent E] [FieldOps E] : Prop where
  zero_canon : Canon (FieldOps.zero : E)
  zero_val : val (FieldOps.zero : E) = 0
  add_spec : ∀ {a b c : E}, Canon a → Canon b → FieldOps.add a b = some c → Canon c ∧ val c = val a + val b
  sub_spec : ∀ {a b c : E}, Canon a → Canon b → FieldOps.sub a b = some c → Canon c ∧ val c = val a - val b
  neg_spec : ∀ {a c : E}, Canon a → FieldOps.neg a = some c → Canon c ∧ val c = - val a
  mul_spec : ∀ {a c : E} {n : Int}, Canon a → FieldOps.mul a n = some c → Canon c ∧ val c = val a * n
  div2_spec : ∀ {a c : E}, Canon a → FieldOps.div2 a = some c → Canon c ∧ val c = val a / 2
  div3_spec : ∀ {a c : E}, Canon a → FieldOps.div3 a = some c → Canon c ∧ val c = val a / 3
  entry_spec : ∀ {a c : E}, Canon a → FieldOps.entry a = some c → c = a
  add_comm : ∀ a b : E, FieldOps.add a b = FieldOps.add b a

instance : LawfulFieldOps Int where
  zero_canon := trivial
  zero_val := by simp [FieldOps.zero, val]
  add_spec _ _ h := ⟨trivial, by rw [(i64_some h).1]; simp [val]⟩
  sub_spec _ _ h := ⟨trivial, by rw [(i64_some h).1]; simp [val]⟩
  neg_spec _ h := ⟨trivial, by rw [(i64_some h).1]; simp [val]⟩
  mul_spec _ h := ⟨trivial, by rw [(i64_some h).1]; simp [val]⟩
  div2_spec {a c} _ h := by
    refine ⟨trivial, ?_⟩
    simp only [FieldOps.div2] at h
    split at h
    · cases h
    · rename_i hc
      injection h with h; subst h
      have h2 : a = a.tdiv 2 * 2 := (Int.tdiv_mul_cancel (Int.dvd_of_tmod_eq_zero (not_not.1 hc))).symm
      simp only [val]
      generalize a.tdiv 2 = c at h2
      rw [h2]; push_cast; ring
  div3_spec {a c} _ h := by
    refine ⟨trivial, ?_⟩
    simp only [FieldOps.div3] at h
    split at h
    · cases h
    · rename_i hc
      injection h with h; subst h
      have h2 : a = a.tdiv 3 * 3 := (Int.tdiv_mul_cancel (Int.dvd_of_tmod_eq_zero (not_not.1 hc))).symm
      simp only [val]
      generalize a.tdiv 3 = c at h2
      rw [h2]; push_cast; ring
  entry_spec _ h := by injection h with h; exact h.symm
  add_comm a b := by simp only [FieldOps.add, Int.add_comm]

theorem Ratio.int_canonical (n : Int) : (Ratio.int n).Canonical := by simp [Ratio.Canonical, Ratio.int]
theorem Ratio.int_val (n : Int) : (Ratio.int n).val = n := by simp [Ratio.val, Ratio.int]

theorem Ratio.div_int_canonical {a c : Ratio} {n : Int} (hn : 0 < n) (ha : a.Canonical) (h : a.div (Ratio.int n) = some c) :
    c.Canonical ∧ c.val = a.val / n := by
  have hc := Ratio.new_pos (Ratio.mul_some h) (by simpa [Ratio.inv, Ratio.int] using mul_pos ha.1 hn)
  refine ⟨hc, ?_⟩
  rw [Ratio.mul_val h]
  simp [Ratio.val, Ratio.inv, Ratio.int, div_eq_mul_inv]

theorem Ratio.add_comm (a b : Ratio) : a.add b = b.add a := by
  unfold Ratio.add
  rw [Int.mul_comm a.denom b.denom]
  unfold i64
  split <;> split <;> simp [Int.add_comm]

instance : LawfulFieldOps Ratio where
  zero_canon := Ratio.int_canonical 0
  zero_val := by show (Ratio.int 0).val = 0; rw [Ratio.int_val]; simp
  add_spec ha hb h := ⟨Ratio.add_canonical ha hb h, Ratio.add_val ha.defined hb.defined h⟩
  sub_spec {a b c} ha hb h := by
    have h' := Ratio.sub_some h
    have hb' : Ratio.Canonical ⟨-b.num, b.denom⟩ := ⟨hb.1, by simpa using hb.2⟩
    refine ⟨Ratio.add_canonical ha hb' h', ?_⟩
    have e := Ratio.add_val ha.defined hb'.defined h'
    show c.val = a.val - b.val
    rw [e]
    simp only [Ratio.val]; push_cast; ring
  neg_spec ha h := ⟨Ratio.neg_canonical ha h, Ratio.neg_val h⟩
  mul_spec {a c n} ha h := ⟨Ratio.mul_canonical ha (Ratio.int_canonical _) h, by
    show c.val = a.val * n
    rw [Ratio.mul_val h, Ratio.int_val]⟩
  div2_spec ha h := by
    obtain ⟨h1, h2⟩ := Ratio.div_int_canonical (by norm_num) ha h
    exact ⟨h1, h2⟩
  div3_spec ha h := by
    obtain ⟨h1, h2⟩ := Ratio.div_int_canonical (by norm_num) ha h
    exact ⟨h1, h2⟩
  entry_spec {a c} ha h := by
    have hc := Ratio.new_pos h ha.1
    refine Ratio.canonical_ext hc ha ?_
    rw [Ratio.new_val h]; rfl
  add_comm := Ratio.add_comm

namespace DimVal
variable {E : Type} [Exponent E] [LawfulExponent E] [FieldOps E] [LawfulFieldOps E]

theorem ext {a b : DimVal E} (ha : a.Canonical) (hb : b.Canonical) (h : a.vec = b.vec) : a = b := by
  induction a generalizing b with
  | nil => cases b with
    | nil => rfl
    | cons x b => simp [vec] at h
  | cons x a ih =>
    cases b with
    | nil => simp [vec] at h
    | cons y b =>
      simp only [vec, List.map_cons, List.cons.injEq] at h
      rw [canon_ext (ha x (by simp)) (hb y (by simp)) h.1,
        ih (fun e he => ha e (by simp [he])) (fun e he => hb e (by simp [he])) h.2]

theorem map1_spec {f : E → Option E} {g : ℚ → ℚ} (hf : ∀ {a c}, Canon a → f a = some c → Canon c ∧ val c = g (val a))
    {a c : DimVal E} (ha : a.Canonical) (h : map1 f a = some c) : c.Canonical ∧ c.vec = a.vec.map g := by
  induction a generalizing c with
  | nil => simp only [map1, Option.some.injEq] at h; subst h; exact ⟨by simp [Canonical], rfl⟩
  | cons x a ih =>
    simp only [map1, bindM_eq_some, pure_eq_some] at h
    obtain ⟨y, hy, c', hc', rfl⟩ := h
    obtain ⟨i1, i2⟩ := ih (fun e he => ha e (by simp [he])) hc'
    obtain ⟨j1, j2⟩ := hf (ha x (by simp)) hy
    refine ⟨fun e he => ?_, ?_⟩
    · rcases List.mem_cons.1 he with rfl | he
      · exact j1
      · exact i1 e he
    · simp only [vec, List.map_cons] at i2 ⊢
      rw [j2, i2]

theorem map2_spec {f : E → E → Option E} {g : ℚ → ℚ → ℚ}
    (hf : ∀ {a b c}, Canon a → Canon b → f a b = some c → Canon c ∧ val c = g (val a) (val b))
    {a b c : DimVal E} (ha : a.Canonical) (hb : b.Canonical) (h : map2 f a b = some c) :
    c.Canonical ∧ c.vec = List.zipWith g a.vec b.vec ∧ a.length = b.length ∧ c.length = a.length := by
  induction a generalizing b c with
  | nil =>
    cases b with
    | nil => simp only [map2, Option.some.injEq] at h; subst h; exact ⟨by simp [Canonical], rfl, rfl, rfl⟩
    | cons y b => simp [map2] at h
  | cons x a ih =>
    cases b with
    | nil => simp [map2] at h
    | cons y b =>
      simp only [map2, bindM_eq_some, pure_eq_some] at h
      obtain ⟨z, hz, c', hc', rfl⟩ := h
      obtain ⟨i1, i2, i3, i4⟩ := ih (fun e he => ha e (by simp [he])) (fun e he => hb e (by simp [he])) hc'
      obtain ⟨j1, j2⟩ := hf (ha x (by simp)) (hb y (by simp)) hz
      refine ⟨fun e he => ?_, ?_, by simp [i3], by simp [i4]⟩
      · rcases List.mem_cons.1 he with rfl | he
        · exact j1
        · exact i1 e he
      · simp only [vec, List.map_cons, List.zipWith_cons_cons] at i2 ⊢
        rw [j2, i2]

theorem map1_isSome {f : E → Option E} {a : DimVal E} : (map1 f a).isSome ↔ ∀ e ∈ a, (f e).isSome := by
  induction a with
  | nil => simp [map1]
  | cons x a ih =>
    simp only [map1, List.mem_cons, forall_eq_or_imp, ← ih]
    cases f x <;> cases map1 f a <;> simp

theorem map1_some {f : E → Option E} {g : E → E} {a : DimVal E} (h : ∀ e ∈ a, f e = some (g e)) : map1 f a = some (a.map g) := by
  induction a with
  | nil => rfl
  | cons x a ih =>
    simp only [map1, h x (by simp), ih fun e he => h e (by simp [he])]; rfl

theorem map2_comm {f : E → E → Option E} (hf : ∀ a b, f a b = f b a) (a b : DimVal E) : map2 f a b = map2 f b a := by
  induction a generalizing b with
  | nil => cases b <;> rfl
  | cons x a ih => cases b with
    | nil => rfl
    | cons y b => simp only [map2, hf x y, ih b]

theorem map1_length {f : E → Option E} {a c : DimVal E} (h : map1 f a = some c) : c.length = a.length := by
  induction a generalizing c with
  | nil => simp only [map1, Option.some.injEq] at h; subst h; rfl
  | cons x a ih =>
    simp only [map1, bindM_eq_some, pure_eq_some] at h
    obtain ⟨y, hy, c', hc', rfl⟩ := h
    simp [ih hc']

theorem none_canonical (n : Nat) : (DimVal.none n : DimVal E).Canonical := by
  intro e he
  rw [DimVal.none, List.mem_replicate] at he
  rw [he.2]; exact LawfulFieldOps.zero_canon

theorem none_vec (n : Nat) : (DimVal.none n : DimVal E).vec = List.replicate n 0 := by
  simp [vec, DimVal.none, LawfulFieldOps.zero_val]

theorem vec_length (a : DimVal E) : a.vec.length = a.length := by simp [vec]

theorem add_spec {a b c : DimVal E} (ha : a.Canonical) (hb : b.Canonical) (h : a.add b = some c) :
    c.Canonical ∧ c.vec = List.zipWith (· + ·) a.vec b.vec ∧ a.length = b.length ∧ c.length = a.length :=
  map2_spec (fun h1 h2 h3 => LawfulFieldOps.add_spec h1 h2 h3) ha hb h
theorem sub_spec {a b c : DimVal E} (ha : a.Canonical) (hb : b.Canonical) (h : a.sub b = some c) :
    c.Canonical ∧ c.vec = List.zipWith (· - ·) a.vec b.vec ∧ a.length = b.length ∧ c.length = a.length :=
  map2_spec (fun h1 h2 h3 => LawfulFieldOps.sub_spec h1 h2 h3) ha hb h
theorem neg_spec {a c : DimVal E} (ha : a.Canonical) (h : a.neg = some c) : c.Canonical ∧ c.vec = a.vec.map (- ·) :=
  map1_spec (fun h1 h2 => LawfulFieldOps.neg_spec h1 h2) ha h
theorem mul_spec {a c : DimVal E} {n : Int} (ha : a.Canonical) (h : a.mul n = some c) : c.Canonical ∧ c.vec = a.vec.map (· * (n : ℚ)) :=
  map1_spec (g := (· * (n : ℚ))) (fun h1 h2 => LawfulFieldOps.mul_spec h1 h2) ha h
theorem div2_spec {a c : DimVal E} (ha : a.Canonical) (h : a.div2 = some c) : c.Canonical ∧ c.vec = a.vec.map (· / 2) :=
  map1_spec (g := (· / 2)) (fun h1 h2 => LawfulFieldOps.div2_spec h1 h2) ha h
theorem div3_spec {a c : DimVal E} (ha : a.Canonical) (h : a.div3 = some c) : c.Canonical ∧ c.vec = a.vec.map (· / 3) :=
  map1_spec (g := (· / 3)) (fun h1 h2 => LawfulFieldOps.div3_spec h1 h2) ha h

end DimVal
end Diman
