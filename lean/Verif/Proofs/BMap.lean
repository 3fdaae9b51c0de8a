import Verif.Model.Resolve
import Mathlib.Data.List.Nodup
/-! Lemmas about identifier order and `BTreeMap`. -/
set_option linter.unusedSectionVars false
namespace Diman

theorem Str.lt_irrefl (a : Str) : Str.lt a a = false := by
  induction a with
  | nil => rfl
  | cons c a ih => simp [Str.lt, ih]

theorem Str.lt_trans {a b c : Str} (h1 : Str.lt a b = true) (h2 : Str.lt b c = true) : Str.lt a c = true := by
  induction a generalizing b c with
  | nil =>
    cases b with
    | nil => simp [Str.lt] at h1
    | cons y b => cases c with
      | nil => simp [Str.lt] at h2
      | cons z c => rfl
  | cons x a ih =>
    cases b with
    | nil => simp [Str.lt] at h1
    | cons y b => cases c with
      | nil => simp [Str.lt] at h2
      | cons z c =>
        simp only [Str.lt] at h1 h2 ⊢
        split_ifs at h1 h2 ⊢ <;> first | rfl | omega | exact ih h1 h2

theorem Char.eq_of_toNat {a b : Char} (h : a.toNat = b.toNat) : a = b := by
  apply Char.ext; apply UInt32.toNat.inj; exact h

theorem Str.lt_total {a b : Str} (h : a ≠ b) (h1 : Str.lt a b = false) : Str.lt b a = true := by
  induction a generalizing b with
  | nil => cases b with
    | nil => exact absurd rfl h
    | cons y b => simp [Str.lt] at h1
  | cons x a ih => cases b with
    | nil => rfl
    | cons y b =>
      simp only [Str.lt] at h1 ⊢
      split_ifs at h1 ⊢
      · rfl
      · have hxy : x = y := Char.eq_of_toNat (by omega)
        subst hxy
        exact ih (fun he => h (by rw [he])) h1

namespace BMap
variable {V : Type}

/-- The keys, in order. -/
def keys (m : BMap V) : List Str := m.map Prod.fst

/-- The representation invariant of a B-tree map: strictly increasing keys. -/
def Sorted (m : BMap V) : Prop := m.keys.Pairwise (fun a b => Str.lt a b = true)

theorem sorted_nil : Sorted ([] : BMap V) := List.Pairwise.nil

theorem Sorted.nodup {m : BMap V} (h : m.Sorted) : m.keys.Nodup :=
  List.Pairwise.imp (fun {a b} hab he => by subst he; simp [Str.lt_irrefl] at hab) h

theorem get_insert (m : BMap V) (k k' : Str) (v : V) :
    (m.insert k v).get k' = if k = k' then some v else m.get k' := by
  induction m with
  | nil => simp [insert, get]
  | cons kv m ih =>
    obtain ⟨k1, v1⟩ := kv
    unfold insert
    by_cases h1 : k = k1
    · subst h1; by_cases h2 : k = k' <;> simp [get, h2]
    · simp only [h1, if_false]
      by_cases h3 : Str.lt k k1 = true
      · simp [h3, get]
      · rw [if_neg h3]
        change (if k1 = k' then some v1 else get (insert m k v) k') =
          if k = k' then some v else (if k1 = k' then some v1 else get m k')
        rw [ih]
        by_cases h2 : k = k'
        · subst h2; simp [Ne.symm h1]
        · simp [h2]

theorem mem_keys_insert (m : BMap V) (k k' : Str) (v : V) : k' ∈ (m.insert k v).keys ↔ k' = k ∨ k' ∈ m.keys := by
  induction m with
  | nil => simp [insert, keys]
  | cons kv m ih =>
    obtain ⟨k1, v1⟩ := kv
    unfold insert
    by_cases h1 : k = k1
    · subst h1; simp [keys]
    · simp only [h1, if_false]
      by_cases h3 : Str.lt k k1 = true
      · simp [h3, keys]
      · simp only [keys] at ih
        simp only [h3, keys, List.map_cons, List.mem_cons, ih, Bool.false_eq_true, if_false]
        tauto

theorem sorted_insert {m : BMap V} (h : m.Sorted) (k : Str) (v : V) : (m.insert k v).Sorted := by
  induction m with
  | nil => simp [insert, Sorted, keys]
  | cons kv m ih =>
    obtain ⟨k1, v1⟩ := kv
    have hm : Sorted m := (List.pairwise_cons.1 h).2
    have hk : ∀ k' ∈ keys m, Str.lt k1 k' = true := (List.pairwise_cons.1 h).1
    unfold insert
    by_cases h1 : k = k1
    · subst h1; simpa [Sorted, keys] using h
    · simp only [h1, if_false]
      by_cases h3 : Str.lt k k1 = true
      · simp only [h3, if_true]
        refine List.pairwise_cons.2 ⟨fun x hx => ?_, h⟩
        rcases List.mem_cons.1 hx with rfl | hx
        · exact h3
        · exact Str.lt_trans h3 (hk x hx)
      · simp only [h3]
        refine List.pairwise_cons.2 ⟨fun x hx => ?_, ih hm⟩
        rcases (mem_keys_insert m k x v).1 hx with rfl | hx
        · exact Str.lt_total h1 (by simpa using h3)
        · exact hk x hx

theorem get_none_iff {m : BMap V} {k : Str} : m.get k = none ↔ k ∉ m.keys := by
  induction m with
  | nil => simp [get, keys]
  | cons kv m ih =>
    obtain ⟨k', v⟩ := kv
    simp only [keys] at ih
    unfold get
    by_cases h : k' = k
    · simp [h, keys]
    · simp [h, ih, keys, Ne.symm h]

theorem contains_iff {m : BMap V} {k : Str} : m.contains k = true ↔ k ∈ m.keys := by
  unfold contains
  rw [← not_iff_not, ← get_none_iff]
  cases m.get k <;> simp

theorem mem_of_get {m : BMap V} {k : Str} {v : V} (h : m.get k = some v) : (k, v) ∈ m := by
  induction m with
  | nil => simp [get] at h
  | cons kv m ih =>
    obtain ⟨k', v'⟩ := kv
    unfold get at h
    by_cases hk : k' = k
    · simp [hk] at h; simp [hk, h]
    · simp [hk] at h; exact List.mem_cons_of_mem _ (ih h)

theorem get_of_mem {m : BMap V} {k : Str} {v : V} (hn : m.keys.Nodup) (h : (k, v) ∈ m) : m.get k = some v := by
  induction m with
  | nil => simp at h
  | cons kv m ih =>
    obtain ⟨k', v'⟩ := kv
    unfold get
    simp only [keys, List.map_cons, List.nodup_cons] at hn
    rcases List.mem_cons.1 h with h | h
    · injection h with h1 h2; simp [h1, h2]
    · have : k' ≠ k := by
        rintro rfl; exact hn.1 (List.mem_map_of_mem (f := Prod.fst) h)
      simp [this, ih hn.2 h]

theorem mem_iff_get {m : BMap V} (hs : m.Sorted) {k : Str} {v : V} : (k, v) ∈ m ↔ m.get k = some v :=
  ⟨get_of_mem hs.nodup, mem_of_get⟩

/-- Two B-tree maps with the same lookups are the same. -/
theorem ext {m n : BMap V} (hm : m.Sorted) (hn : n.Sorted) (h : ∀ k, m.get k = n.get k) : m = n := by
  induction m generalizing n with
  | nil =>
    cases n with
    | nil => rfl
    | cons kv n =>
      have := h kv.1
      simp [get] at this
  | cons kv m ih =>
    obtain ⟨k, v⟩ := kv
    have hm' : Sorted m := (List.pairwise_cons.1 hm).2
    have hkm : ∀ k' ∈ keys m, Str.lt k k' = true := (List.pairwise_cons.1 hm).1
    cases n with
    | nil => have := h k; simp [get] at this
    | cons kv' n =>
      obtain ⟨k', v'⟩ := kv'
      have hn' : Sorted n := (List.pairwise_cons.1 hn).2
      have hkn : ∀ x ∈ keys n, Str.lt k' x = true := (List.pairwise_cons.1 hn).1
      have hkk : k = k' := by
        by_contra hne
        have h1 := h k
        have h2 := h k'
        simp only [get, if_true, if_neg hne, if_neg (Ne.symm hne)] at h1 h2
        have hk : k ∈ keys n := by
          by_contra hc; rw [← get_none_iff] at hc; rw [hc] at h1; simp at h1
        have hk' : k' ∈ keys m := by
          by_contra hc; rw [← get_none_iff] at hc; rw [hc] at h2; simp at h2
        have := Str.lt_trans (hkm k' hk') (hkn k hk)
        simp [Str.lt_irrefl] at this
      subst hkk
      have hv : v = v' := by have := h k; simpa [get] using this
      subst hv
      congr 1
      refine ih hm' hn' fun x => ?_
      by_cases hx : k = x
      · subst hx
        have a : k ∉ keys m := fun hc => by have := hkm k hc; simp [Str.lt_irrefl] at this
        have b : k ∉ keys n := fun hc => by have := hkn k hc; simp [Str.lt_irrefl] at this
        rw [get_none_iff.2 a, get_none_iff.2 b]
      · have := h x
        simpa [get, hx] using this

end BMap
end Diman
