import Verif.Proofs.Exponent
import Mathlib.Data.List.Nodup
/-! Lemmas about dimension maps. -/
set_option linter.unusedSectionVars false
namespace Diman
open LawfulExponent
variable {E : Type} [Exponent E]

theorem bindM_eq_some {α β : Type} {o : Option α} {f : α → Option β} {b : β} :
    (o >>= f) = some b ↔ ∃ a, o = some a ∧ f a = some b := by
  simp [Option.bind_eq_bind, Option.bind_eq_some_iff]

theorem pure_eq_some {α : Type} {a b : α} : (pure a : Option α) = some b ↔ a = b := by
  simp

namespace Dims

theorem get_none_iff {d : Dims E} {k : Str} : d.get k = none ↔ k ∉ d.map Prod.fst := by
  induction d with
  | nil => simp [get]
  | cons kv d ih =>
    obtain ⟨k', v⟩ := kv
    unfold get
    by_cases h : k' = k
    · simp [h]
    · simp [h, ih, Ne.symm h]

theorem get_mem {d : Dims E} {k : Str} {v : E} (h : d.get k = some v) : (k, v) ∈ d := by
  induction d with
  | nil => simp [get] at h
  | cons kv d ih =>
    obtain ⟨k', v'⟩ := kv
    unfold get at h
    by_cases hk : k' = k
    · simp [hk] at h; simp [hk, h]
    · simp [hk] at h; exact List.mem_cons_of_mem _ (ih h)

theorem get_of_mem {d : Dims E} {k : Str} {v : E} (hn : (d.map Prod.fst).Nodup) (h : (k, v) ∈ d) :
    d.get k = some v := by
  induction d with
  | nil => simp at h
  | cons kv d ih =>
    obtain ⟨k', v'⟩ := kv
    unfold get
    simp only [List.map_cons, List.nodup_cons] at hn
    rcases List.mem_cons.1 h with h | h
    · injection h with h1 h2; simp [h1, h2]
    · have : k' ≠ k := by
        rintro rfl; exact hn.1 (List.mem_map_of_mem (f := Prod.fst) h)
      simp [this, ih hn.2 h]

/-- Exact effect of `addEntry` on lookups, and on the key list. -/
theorem addEntry_spec {d d' : Dims E} {k : Str} {v : E} (h : d.addEntry k v = some d') :
    (∀ k', k' ≠ k → d'.get k' = d.get k') ∧
    (match d.get k with
      | none => d'.get k = some v ∧ d'.map Prod.fst = d.map Prod.fst ++ [k]
      | some w => ∃ x, Exponent.add w v = some x ∧ d'.get k = some x ∧ d'.map Prod.fst = d.map Prod.fst) := by
  induction d generalizing d' with
  | nil =>
    simp only [addEntry, Option.some.injEq] at h; subst h
    refine ⟨fun k' hk => ?_, ?_⟩
    · simp [get, Ne.symm hk]
    · simp [get]
  | cons kv d ih =>
    obtain ⟨k0, v0⟩ := kv
    unfold addEntry at h
    by_cases hk : k0 = k
    · subst hk
      simp only [if_true, bindM_eq_some, pure_eq_some] at h
      obtain ⟨x, hx, h⟩ := h
      subst h
      refine ⟨fun k' hk' => ?_, ?_⟩
      · simp [get, Ne.symm hk']
      · simp only [get, if_true]
        exact ⟨x, hx, rfl, rfl⟩
    · simp only [if_neg hk, bindM_eq_some, pure_eq_some] at h
      obtain ⟨m, hm, h⟩ := h
      subst h
      obtain ⟨i1, i2⟩ := ih hm
      refine ⟨fun k' hk' => ?_, ?_⟩
      · simp only [get]; split
        · rfl
        · exact i1 k' hk'
      · simp only [get, if_neg hk]
        cases hg : Dims.get d k with
        | none => rw [hg] at i2; simpa using i2
        | some w =>
          rw [hg] at i2
          obtain ⟨x, h1, h2, h3⟩ := i2
          exact ⟨x, h1, h2, by simp [h3]⟩

theorem inv_keys {a c : Dims E} (h : a.inv = some c) : c.map Prod.fst = a.map Prod.fst := by
  induction a generalizing c with
  | nil => simp only [inv, Option.some.injEq] at h; subst h; rfl
  | cons kv a ih =>
    obtain ⟨k, v⟩ := kv
    simp only [inv, bindM_eq_some, pure_eq_some] at h
    obtain ⟨x, hx, y, hy, h⟩ := h
    subst h; simp [ih hy]

theorem pow_keys {p : E} {a c : Dims E} (h : a.pow p = some c) : c.map Prod.fst = a.map Prod.fst := by
  induction a generalizing c with
  | nil => simp only [pow, Option.some.injEq] at h; subst h; rfl
  | cons kv a ih =>
    obtain ⟨k, v⟩ := kv
    simp only [pow, bindM_eq_some, pure_eq_some] at h
    obtain ⟨x, hx, y, hy, h⟩ := h
    subst h; simp [ih hy]

variable [LawfulExponent E]

theorem expo_nil (k : Str) : expo ([] : Dims E) k = 0 := rfl

theorem wf_nil : WF ([] : Dims E) := ⟨List.nodup_nil, by simp⟩

theorem canonical_nil : Canonical ([] : Dims E) := by simp [Canonical]

theorem WF.good {d : Dims E} (h : d.WF) {k : Str} {v : E} (hg : d.get k = some v) : Good v :=
  h.2 _ (get_mem hg)

theorem wf_of_get {d : Dims E} (hn : (d.map Prod.fst).Nodup) (h : ∀ k v, d.get k = some v → Good v) : d.WF :=
  ⟨hn, fun kv hkv => h kv.1 kv.2 (get_of_mem hn hkv)⟩

theorem addEntry_wf {d d' : Dims E} {k : Str} {v : E} (hd : d.WF) (hv : Good v)
    (h : d.addEntry k v = some d') : d'.WF ∧ ∀ k', d'.expo k' = d.expo k' + (if k' = k then val v else 0) := by
  obtain ⟨h1, h2⟩ := addEntry_spec h
  cases hg : d.get k with
  | none =>
    rw [hg] at h2
    obtain ⟨h3, h4⟩ := h2
    constructor
    · apply wf_of_get
      · rw [h4, List.nodup_append]
        refine ⟨hd.1, by simp, ?_⟩
        intro a ha b hb
        simp only [List.mem_singleton] at hb; subst hb
        rintro rfl
        exact get_none_iff.1 hg ha
      · intro k' v' hk'
        by_cases hkk : k' = k
        · subst hkk; rw [h3] at hk'; injection hk' with hk'; exact hk' ▸ hv
        · rw [h1 k' hkk] at hk'; exact hd.good hk'
    · intro k'
      by_cases hkk : k' = k
      · subst hkk; simp [expo, h3, hg]
      · simp [expo, h1 k' hkk, hkk]
  | some w =>
    rw [hg] at h2
    obtain ⟨x, hx, h3, h4⟩ := h2
    obtain ⟨gx, vx⟩ := add_good (hd.good hg) hv hx
    constructor
    · apply wf_of_get
      · rw [h4]; exact hd.1
      · intro k' v' hk'
        by_cases hkk : k' = k
        · subst hkk; rw [h3] at hk'; injection hk' with hk'; exact hk' ▸ gx
        · rw [h1 k' hkk] at hk'; exact hd.good hk'
    · intro k'
      by_cases hkk : k' = k
      · subst hkk; simp [expo, h3, hg, vx]
      · simp [expo, h1 k' hkk, hkk]

theorem wf_cons {k : Str} {v : E} {d : Dims E} : WF ((k, v) :: d) ↔ k ∉ d.map Prod.fst ∧ Good v ∧ WF d := by
  simp only [WF, List.map_cons, List.nodup_cons, List.mem_cons, forall_eq_or_imp]
  tauto

theorem expo_cons {k : Str} {v : E} {d : Dims E} (h : k ∉ d.map Prod.fst) (k' : Str) :
    expo ((k, v) :: d) k' = (if k' = k then val v else 0) + d.expo k' := by
  by_cases hk : k' = k
  · subst hk; simp [expo, get, get_none_iff.2 h]
  · simp [expo, get, Ne.symm hk, hk]

theorem mul_spec {a b c : Dims E} (ha : a.WF) (hb : b.WF) (h : a.mul b = some c) :
    c.WF ∧ ∀ k, c.expo k = a.expo k + b.expo k := by
  induction b generalizing a with
  | nil =>
    simp only [mul, Option.some.injEq] at h; subst h
    exact ⟨ha, fun k => by simp [expo_nil]⟩
  | cons kv b ih =>
    obtain ⟨k, v⟩ := kv
    simp only [mul, bindM_eq_some] at h
    obtain ⟨a', ha', h⟩ := h
    obtain ⟨hk, gv, hb'⟩ := wf_cons.1 hb
    obtain ⟨w1, e1⟩ := addEntry_wf ha gv ha'
    obtain ⟨w2, e2⟩ := ih w1 hb' h
    refine ⟨w2, fun k' => ?_⟩
    rw [e2, e1, expo_cons hk]; ring

theorem inv_spec {a c : Dims E} (ha : a.WF) (h : a.inv = some c) :
    c.WF ∧ ∀ k, c.expo k = -a.expo k := by
  induction a generalizing c with
  | nil => simp only [inv, Option.some.injEq] at h; subst h; exact ⟨wf_nil, fun k => by simp [expo_nil]⟩
  | cons kv a ih =>
    obtain ⟨k, v⟩ := kv
    simp only [inv, bindM_eq_some, pure_eq_some] at h
    obtain ⟨x, hx, y, hy, h⟩ := h
    subst h
    obtain ⟨hk, gv, ha'⟩ := wf_cons.1 ha
    obtain ⟨gx, vx⟩ := neg_good gv hx
    obtain ⟨wy, ey⟩ := ih ha' hy
    have hk' : k ∉ y.map Prod.fst := by rw [inv_keys hy]; exact hk
    refine ⟨wf_cons.2 ⟨hk', gx, wy⟩, fun k' => ?_⟩
    rw [expo_cons hk', expo_cons hk, ey, vx]; split <;> ring

theorem div_spec {a b c : Dims E} (ha : a.WF) (hb : b.WF) (h : a.div b = some c) :
    c.WF ∧ ∀ k, c.expo k = a.expo k - b.expo k := by
  simp only [div, bindM_eq_some] at h
  obtain ⟨b', hb', h⟩ := h
  obtain ⟨w1, e1⟩ := inv_spec hb hb'
  obtain ⟨w2, e2⟩ := mul_spec ha w1 h
  exact ⟨w2, fun k => by rw [e2, e1]; ring⟩

theorem pow_spec {p : E} {a c : Dims E} (hp : Good p) (ha : a.WF) (h : a.pow p = some c) :
    c.WF ∧ ∀ k, c.expo k = a.expo k * val p := by
  induction a generalizing c with
  | nil => simp only [pow, Option.some.injEq] at h; subst h; exact ⟨wf_nil, fun k => by simp [expo_nil]⟩
  | cons kv a ih =>
    obtain ⟨k, v⟩ := kv
    simp only [pow, bindM_eq_some, pure_eq_some] at h
    obtain ⟨x, hx, y, hy, h⟩ := h
    subst h
    obtain ⟨hk, gv, ha'⟩ := wf_cons.1 ha
    obtain ⟨gx, vx⟩ := mul_good gv hp hx
    obtain ⟨wy, ey⟩ := ih ha' hy
    have hk' : k ∉ y.map Prod.fst := by rw [pow_keys hy]; exact hk
    refine ⟨wf_cons.2 ⟨hk', gx, wy⟩, fun k' => ?_⟩
    rw [expo_cons hk', expo_cons hk, ey, vx]; split <;> ring

/-! ### Normal forms are preserved -/

theorem addEntry_canonical {d d' : Dims E} {k : Str} {v : E} (hd : d.Canonical) (hv : Canon v)
    (h : d.addEntry k v = some d') : d'.Canonical := by
  induction d generalizing d' with
  | nil => simp only [addEntry, Option.some.injEq] at h; subst h; simpa [Canonical] using hv
  | cons kv d ih =>
    obtain ⟨k0, v0⟩ := kv
    unfold addEntry at h
    have hv0 : Canon v0 := hd (k0, v0) (by simp)
    have hd' : Canonical d := fun kv hkv => hd kv (List.mem_cons_of_mem _ hkv)
    by_cases hk : k0 = k
    · simp only [if_pos hk, bindM_eq_some, pure_eq_some] at h
      obtain ⟨x, hx, h⟩ := h; subst h
      intro kv hkv
      rcases List.mem_cons.1 hkv with e | e
      · subst e; exact add_canon hv0 hv hx
      · exact hd' kv e
    · simp only [if_neg hk, bindM_eq_some, pure_eq_some] at h
      obtain ⟨m, hm, h⟩ := h; subst h
      intro kv hkv
      rcases List.mem_cons.1 hkv with e | e
      · subst e; exact hv0
      · exact ih hd' hm kv e

theorem mul_canonical {a b c : Dims E} (ha : a.Canonical) (hb : b.Canonical) (h : a.mul b = some c) :
    c.Canonical := by
  induction b generalizing a with
  | nil => simp only [mul, Option.some.injEq] at h; subst h; exact ha
  | cons kv b ih =>
    obtain ⟨k, v⟩ := kv
    simp only [mul, bindM_eq_some] at h
    obtain ⟨a', ha', h⟩ := h
    exact ih (addEntry_canonical ha (hb (k, v) (by simp)) ha') (fun kv hkv => hb kv (List.mem_cons_of_mem _ hkv)) h

theorem inv_canonical {a c : Dims E} (ha : a.Canonical) (h : a.inv = some c) : c.Canonical := by
  induction a generalizing c with
  | nil => simp only [inv, Option.some.injEq] at h; subst h; exact canonical_nil
  | cons kv a ih =>
    obtain ⟨k, v⟩ := kv
    simp only [inv, bindM_eq_some, pure_eq_some] at h
    obtain ⟨x, hx, y, hy, h⟩ := h
    subst h
    intro kv hkv
    rcases List.mem_cons.1 hkv with e | e
    · subst e; exact neg_canon (ha (k, v) (by simp)) hx
    · exact ih (fun kv hkv => ha kv (List.mem_cons_of_mem _ hkv)) hy kv e

theorem div_canonical {a b c : Dims E} (ha : a.Canonical) (hb : b.Canonical) (h : a.div b = some c) :
    c.Canonical := by
  simp only [div, bindM_eq_some] at h
  obtain ⟨b', hb', h⟩ := h
  exact mul_canonical ha (inv_canonical hb hb') h

theorem pow_canonical {p : E} {a c : Dims E} (hp : Canon p) (ha : a.Canonical) (h : a.pow p = some c) :
    c.Canonical := by
  induction a generalizing c with
  | nil => simp only [pow, Option.some.injEq] at h; subst h; exact canonical_nil
  | cons kv a ih =>
    obtain ⟨k, v⟩ := kv
    simp only [pow, bindM_eq_some, pure_eq_some] at h
    obtain ⟨x, hx, y, hy, h⟩ := h
    subst h
    intro kv hkv
    rcases List.mem_cons.1 hkv with e | e
    · subst e; exact mul_canon (ha (k, v) (by simp)) hp hx
    · exact ih (fun kv hkv => ha kv (List.mem_cons_of_mem _ hkv)) hy kv e

end Dims

/-! ### Expressions -/
variable {M : Type} [MagOps E M]

theorem dm_mul_some {a b c : DM E M} (h : MulDiv.mul E a b = some c) :
    a.dims.mul b.dims = some c.dims ∧ c.mag = MagOps.mul E a.mag b.mag := by
  simp only [MulDiv.mul, bindM_eq_some, pure_eq_some] at h
  obtain ⟨d, hd, h⟩ := h; subst h; exact ⟨hd, rfl⟩

theorem dm_div_some {a b c : DM E M} (h : MulDiv.div E a b = some c) :
    a.dims.div b.dims = some c.dims ∧ c.mag = MagOps.div E a.mag b.mag := by
  simp only [MulDiv.div, bindM_eq_some, pure_eq_some] at h
  obtain ⟨d, hd, h⟩ := h; subst h; exact ⟨hd, rfl⟩

theorem dm_pow_some {a c : DM E M} {p : E} (h : MulDiv.pow a p = some c) :
    a.dims.pow p = some c.dims ∧ c.mag = MagOps.pow a.mag p := by
  simp only [MulDiv.pow, bindM_eq_some, pure_eq_some] at h
  obtain ⟨d, hd, h⟩ := h; subst h; exact ⟨hd, rfl⟩

variable [LawfulExponent E]

mutual
theorem Expr.eval_expo (e : Expr (DM E M) E) (hl : ∀ d ∈ e.vals, d.dims.WF) (he : e.AllExp Good) {r : DM E M}
    (h : e.eval = some r) : r.dims.WF ∧ ∀ k, r.dims.expo k = e.specExpo (fun d => d.dims.expo) k := by
  match e with
  | .value f => exact Factor.eval_expo f hl he h
  | .binary l o f =>
    simp only [Expr.eval, bindM_eq_some] at h
    obtain ⟨a, ha, b, hb, h⟩ := h
    have i1 := Expr.eval_expo l (fun d hd => hl d (by simp [Expr.vals, hd])) he.1 ha
    have i2 := Factor.eval_expo f (fun d hd => hl d (by simp [Expr.vals, hd])) he.2 hb
    cases o with
    | mul =>
      obtain ⟨w, e⟩ := Dims.mul_spec i1.1 i2.1 (dm_mul_some h).1
      exact ⟨w, fun k => by rw [e, i1.2, i2.2]; simp [Expr.specExpo]⟩
    | div =>
      obtain ⟨w, e⟩ := Dims.div_spec i1.1 i2.1 (dm_div_some h).1
      exact ⟨w, fun k => by rw [e, i1.2, i2.2]; simp [Expr.specExpo]⟩
theorem Factor.eval_expo (f : Factor (DM E M) E) (hl : ∀ d ∈ f.vals, d.dims.WF) (he : f.AllExp Good) {r : DM E M}
    (h : f.eval = some r) : r.dims.WF ∧ ∀ k, r.dims.expo k = f.specExpo (fun d => d.dims.expo) k := by
  match f with
  | .value v =>
    simp only [Factor.eval, Option.some.injEq] at h; subst h
    exact ⟨hl v (by simp [Factor.vals]), fun k => by simp [Factor.specExpo]⟩
  | .power v p =>
    simp only [Factor.eval] at h
    obtain ⟨w, e⟩ := Dims.pow_spec he (hl v (by simp [Factor.vals])) (dm_pow_some h).1
    exact ⟨w, fun k => by rw [e]; simp [Factor.specExpo]⟩
  | .paren e =>
    simp only [Factor.eval] at h
    have := Expr.eval_expo e hl he h
    exact ⟨this.1, fun k => by rw [this.2]; simp [Factor.specExpo]⟩
end

mutual
theorem Expr.eval_canonical (e : Expr (DM E M) E) (hl : ∀ d ∈ e.vals, d.dims.Canonical) (he : e.AllExp Canon)
    {r : DM E M} (h : e.eval = some r) : r.dims.Canonical := by
  match e with
  | .value f => exact Factor.eval_canonical f hl he h
  | .binary l o f =>
    simp only [Expr.eval, bindM_eq_some] at h
    obtain ⟨a, ha, b, hb, h⟩ := h
    have i1 := Expr.eval_canonical l (fun d hd => hl d (by simp [Expr.vals, hd])) he.1 ha
    have i2 := Factor.eval_canonical f (fun d hd => hl d (by simp [Expr.vals, hd])) he.2 hb
    cases o with
    | mul => exact Dims.mul_canonical i1 i2 (dm_mul_some h).1
    | div => exact Dims.div_canonical i1 i2 (dm_div_some h).1
theorem Factor.eval_canonical (f : Factor (DM E M) E) (hl : ∀ d ∈ f.vals, d.dims.Canonical) (he : f.AllExp Canon)
    {r : DM E M} (h : f.eval = some r) : r.dims.Canonical := by
  match f with
  | .value v =>
    simp only [Factor.eval, Option.some.injEq] at h; subst h
    exact hl v (by simp [Factor.vals])
  | .power v p =>
    simp only [Factor.eval] at h
    exact Dims.pow_canonical he (hl v (by simp [Factor.vals])) (dm_pow_some h).1
  | .paren e =>
    simp only [Factor.eval] at h
    exact Expr.eval_canonical e hl he h
end

end Diman
