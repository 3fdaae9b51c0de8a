import Verif.Proofs.BMap
import Verif.Proofs.Dims
import Verif.Spec.Resolve
import Mathlib.Data.Set.Finite.Lattice
import Mathlib.Data.Fintype.Card
import Mathlib.Order.WellFounded
import Mathlib.Data.Fintype.EquivFin
/-! Lemmas about the resolver. -/
set_option linter.unusedSectionVars false
namespace Diman
open LawfulExponent

/-! ### Expressions -/
section expr
variable {T T2 E : Type}

mutual
theorem Expr.mapM_of_forall {f : T → Option T2} {g : T → T2} (e : Expr T E) (h : ∀ v ∈ e.vals, f v = some (g v)) :
    e.mapM f = some (e.map g) := by
  cases e with
  | value v => simp only [Expr.vals] at h; simp [Expr.mapM, Expr.map, Factor.mapM_of_forall v h]
  | binary l o r =>
    simp only [Expr.vals, List.mem_append] at h
    simp [Expr.mapM, Expr.map, Expr.mapM_of_forall l (fun v hv => h v (.inl hv)),
      Factor.mapM_of_forall r (fun v hv => h v (.inr hv))]
theorem Factor.mapM_of_forall {f : T → Option T2} {g : T → T2} (e : Factor T E) (h : ∀ v ∈ e.vals, f v = some (g v)) :
    e.mapM f = some (e.map g) := by
  cases e with
  | value v => simp [Factor.vals] at h; simp [Factor.mapM, Factor.map, h]
  | power v p => simp [Factor.vals] at h; simp [Factor.mapM, Factor.map, h]
  | paren e => simp only [Factor.vals] at h; simp [Factor.mapM, Factor.map, Expr.mapM_of_forall e h]
end

mutual
theorem Expr.mapM_some_forall {f : T → Option T2} (e : Expr T E) {e' : Expr T2 E} (h : e.mapM f = some e') :
    ∀ v ∈ e.vals, (f v).isSome := by
  cases e with
  | value v =>
    simp only [Expr.mapM, bindM_eq_some] at h
    obtain ⟨a, h1, _⟩ := h
    exact Factor.mapM_some_forall v h1
  | binary l o r =>
    simp only [Expr.mapM, bindM_eq_some] at h
    obtain ⟨a, h1, b, h2, _⟩ := h
    intro v hv
    simp only [Expr.vals, List.mem_append] at hv
    rcases hv with hv | hv
    · exact Expr.mapM_some_forall l h1 v hv
    · exact Factor.mapM_some_forall r h2 v hv
theorem Factor.mapM_some_forall {f : T → Option T2} (e : Factor T E) {e' : Factor T2 E} (h : e.mapM f = some e') :
    ∀ v ∈ e.vals, (f v).isSome := by
  cases e with
  | value v =>
    simp only [Factor.mapM, bindM_eq_some] at h
    obtain ⟨a, h1, _⟩ := h
    simp [Factor.vals, h1]
  | power v p =>
    simp only [Factor.mapM, bindM_eq_some] at h
    obtain ⟨a, h1, _⟩ := h
    simp [Factor.vals, h1]
  | paren e =>
    simp only [Factor.mapM, bindM_eq_some] at h
    obtain ⟨a, h1, _⟩ := h
    exact Expr.mapM_some_forall e h1
end

mutual
theorem Expr.mapM_congr {f g : T → Option T2} (e : Expr T E) (h : ∀ v ∈ e.vals, f v = g v) : e.mapM f = e.mapM g := by
  cases e with
  | value v => simp only [Expr.vals] at h; simp [Expr.mapM, Factor.mapM_congr v h]
  | binary l o r =>
    simp only [Expr.vals, List.mem_append] at h
    simp [Expr.mapM, Expr.mapM_congr l (fun v hv => h v (.inl hv)), Factor.mapM_congr r (fun v hv => h v (.inr hv))]
theorem Factor.mapM_congr {f g : T → Option T2} (e : Factor T E) (h : ∀ v ∈ e.vals, f v = g v) : e.mapM f = e.mapM g := by
  cases e with
  | value v => simp [Factor.vals] at h; simp [Factor.mapM, h]
  | power v p => simp [Factor.vals] at h; simp [Factor.mapM, h]
  | paren e => simp only [Factor.vals] at h; simp [Factor.mapM, Expr.mapM_congr e h]
end

mutual
theorem Expr.vals_map (f : T → T2) (e : Expr T E) : (e.map f).vals = e.vals.map f := by
  cases e with
  | value v => simp [Expr.map, Expr.vals, Factor.vals_map f v]
  | binary l o r => simp [Expr.map, Expr.vals, Expr.vals_map f l, Factor.vals_map f r]
theorem Factor.vals_map (f : T → T2) (e : Factor T E) : (e.map f).vals = e.vals.map f := by
  cases e with
  | value v => simp [Factor.map, Factor.vals]
  | power v p => simp [Factor.map, Factor.vals]
  | paren e => simp [Factor.map, Factor.vals, Expr.vals_map f e]
end

mutual
theorem Expr.map_map {T3 : Type} (f : T → T2) (g : T2 → T3) (e : Expr T E) : (e.map f).map g = e.map (g ∘ f) := by
  cases e with
  | value v => simp [Expr.map, Factor.map_map f g v]
  | binary l o r => simp [Expr.map, Expr.map_map f g l, Factor.map_map f g r]
theorem Factor.map_map {T3 : Type} (f : T → T2) (g : T2 → T3) (e : Factor T E) : (e.map f).map g = e.map (g ∘ f) := by
  cases e with
  | value v => simp [Factor.map]
  | power v p => simp [Factor.map]
  | paren e => simp [Factor.map, Expr.map_map f g e]
end

mutual
theorem Expr.idents_eq_vals {C : Type} (e : Expr (Atom C) E) :
    e.idents = e.vals.filterMap (fun | .concrete _ => none | .other x => some x) := by
  cases e with
  | value v => simp [Expr.idents, Expr.vals, Factor.idents_eq_vals v]
  | binary l o r => simp [Expr.idents, Expr.vals, Expr.idents_eq_vals l, Factor.idents_eq_vals r]
theorem Factor.idents_eq_vals {C : Type} (e : Factor (Atom C) E) :
    e.idents = e.vals.filterMap (fun | .concrete _ => none | .other x => some x) := by
  cases e with
  | value v => cases v <;> simp [Factor.idents, Factor.vals]
  | power v p => cases v <;> simp [Factor.idents, Factor.vals]
  | paren e => simp [Factor.idents, Factor.vals, Expr.idents_eq_vals e]
end

theorem Expr.idents_mapConcrete {C D : Type} (f : C → D) (e : Expr (Atom C) E) :
    (e.map (Atom.mapConcrete f)).idents = e.idents := by
  rw [Expr.idents_eq_vals, Expr.idents_eq_vals, Expr.vals_map, List.filterMap_map]
  congr 1
  funext a
  cases a <;> rfl

section allexp
mutual
theorem Expr.allExp_map (P : E → Prop) (f : T → T2) (e : Expr T E) : (e.map f).AllExp P ↔ e.AllExp P := by
  cases e with
  | value v => simp only [Expr.map, Expr.AllExp, Factor.allExp_map P f v]
  | binary l o r => simp only [Expr.map, Expr.AllExp, Expr.allExp_map P f l, Factor.allExp_map P f r]
theorem Factor.allExp_map (P : E → Prop) (f : T → T2) (e : Factor T E) : (e.map f).AllExp P ↔ e.AllExp P := by
  cases e with
  | value v => simp only [Factor.map, Factor.AllExp]
  | power v p => simp only [Factor.map, Factor.AllExp]
  | paren e => simp only [Factor.map, Factor.AllExp, Expr.allExp_map P f e]
end
end allexp

end expr

/-! ### Items -/
section items
variable {E M : Type} [Exponent E] [MagOps E M]

theorem Item.refs_eq (i : Item E M) : i.refs = i.expr.idents := by
  rw [Expr.idents_eq_vals]; unfold Item.refs; congr 1; funext a; cases a <;> rfl

theorem mem_refs {i : Item E M} {x : Str} : x ∈ i.refs ↔ Atom.other x ∈ i.expr.vals := by
  unfold Item.refs
  rw [List.mem_filterMap]
  constructor
  · rintro ⟨a, ha, hx⟩
    cases a with
    | concrete c => simp at hx
    | other y => simp at hx; subst hx; exact ha
  · intro h; exact ⟨_, h, rfl⟩

theorem isResolvable_iff {res : BMap (ResolvedItem E M)} {i : Item E M} :
    isResolvable res i = true ↔ ∀ x ∈ i.refs, x ∈ res.keys := by
  unfold isResolvable
  rw [List.all_eq_true]
  constructor
  · intro h x hx
    exact BMap.contains_iff.1 (h _ (mem_refs.1 hx))
  · intro h a ha
    cases a with
    | concrete c => rfl
    | other x => exact BMap.contains_iff.2 (h x (mem_refs.2 ha))

/-- The lookup `resolve_dimensions` makes for every leaf. -/
def leafOf (res : BMap (ResolvedItem E M)) : Atom (DM E M) → Option (DM E M)
  | .concrete c => some c
  | .other x => (res.get x).map ResolvedItem.dimensions

theorem resolveDimensions_def (res : BMap (ResolvedItem E M)) (i : Item E M) :
    resolveDimensions res i = (i.expr.mapM (leafOf res)).bind Expr.eval := by
  rfl

theorem resolveDimensions_congr {res res' : BMap (ResolvedItem E M)} {i : Item E M}
    (h : ∀ x ∈ i.refs, res.get x = res'.get x) : resolveDimensions res i = resolveDimensions res' i := by
  rw [resolveDimensions_def, resolveDimensions_def]
  congr 1
  apply Expr.mapM_congr
  intro a ha
  cases a with
  | concrete c => rfl
  | other x => simp [leafOf, h x (mem_refs.2 ha)]

/-! ### The loop -/

theorem takeResolvable_none {res : BMap (ResolvedItem E M)} {l : List (Item E M)} :
    takeResolvable res l = none ↔ ∀ i ∈ l, isResolvable res i = false := by
  induction l with
  | nil => simp [takeResolvable]
  | cons a l ih =>
    unfold takeResolvable
    by_cases ha : isResolvable res a = true
    · simp [ha]
    · simp [ha, ih]

theorem takeResolvable_some {res : BMap (ResolvedItem E M)} {l : List (Item E M)} {x : Item E M} {l' : List (Item E M)}
    (h : takeResolvable res l = some (x, l')) :
    isResolvable res x = true ∧ ∃ l1 l2, l = l1 ++ x :: l2 ∧ l' = l1 ++ l2 := by
  induction l generalizing x l' with
  | nil => simp [takeResolvable] at h
  | cons a l ih =>
    unfold takeResolvable at h
    split at h
    · rename_i ha
      injection h with h; injection h with h1 h2; subst h1; subst h2
      exact ⟨ha, [], l, rfl, rfl⟩
    · cases ht : takeResolvable res l with
      | none => simp [ht] at h
      | some p =>
        obtain ⟨y, ys⟩ := p
        simp [ht] at h
        obtain ⟨h1, h2⟩ := h; subst h1; subst h2
        obtain ⟨hr, l1, l2, e1, e2⟩ := ih ht
        exact ⟨hr, a :: l1, l2, by simp [e1], by simp [e2]⟩

/-- Iterations of the resolution loop: `Run l res done l' res'` if from unresolved `l` and map `res` the loop moves the items
`done` and arrives at `l'`, `res'`. -/
inductive Run : List (Item E M) → BMap (ResolvedItem E M) → List (Item E M) → List (Item E M) →
    BMap (ResolvedItem E M) → Prop
  | refl (l res) : Run l res [] l res
  | step {l res x rest d done l' res'} (ht : takeResolvable res l = some (x, rest)) (hd : resolveDimensions res x = some d)
      (hr : Run rest (res.insert x.ident ⟨x, d⟩) done l' res') : Run l res (x :: done) l' res'

theorem resolveLoop_run {l : List (Item E M)} {res res' : BMap (ResolvedItem E M)} {ds : List Diag}
    (h : resolveLoop l res = some (res', ds)) :
    ∃ done l', Run l res done l' res' ∧ (∀ i ∈ l', isResolvable res' i = false) ∧
      ds = if l'.isEmpty then [] else [.unresolvable (l'.map Item.ident)] := by
  induction hn : l.length generalizing l res with
  | zero =>
    have : l = [] := List.eq_nil_of_length_eq_zero hn
    subst this
    rw [resolveLoop] at h
    simp at h
    obtain ⟨rfl, rfl⟩ := h
    exact ⟨[], [], .refl _ _, by simp, rfl⟩
  | succ n ih =>
    rw [resolveLoop] at h
    have hne : l.isEmpty = false := by cases l <;> simp_all
    rw [hne] at h
    simp only [Bool.false_eq_true, if_false] at h
    split at h
    · rename_i x rest ht
      simp only [bindM_eq_some] at h
      obtain ⟨d, hd, h⟩ := h
      have hl := takeResolvable_length ht
      obtain ⟨done, l', hr, h1, h2⟩ := ih h (by omega)
      exact ⟨x :: done, l', .step ht hd hr, h1, h2⟩
    · rename_i ht
      simp at h
      obtain ⟨rfl, rfl⟩ := h
      refine ⟨[], l, .refl _ _, takeResolvable_none.1 ht, ?_⟩
      simp [hne]

theorem run_perm {l done l' : List (Item E M)} {res res' : BMap (ResolvedItem E M)} (h : Run l res done l' res') :
    l.Perm (done ++ l') ∧ l'.Sublist l := by
  induction h with
  | refl => simp
  | step ht hd hr ih =>
    obtain ⟨_, l1, l2, rfl, rfl⟩ := takeResolvable_some ht
    refine ⟨?_, ?_⟩
    · exact (List.perm_middle).trans (by simpa using ih.1)
    · exact ih.2.trans (by simp)

theorem run_sorted {l done l' : List (Item E M)} {res res' : BMap (ResolvedItem E M)} (h : Run l res done l' res')
    (hs : res.Sorted) : res'.Sorted := by
  induction h with
  | refl => exact hs
  | step ht hd hr ih => exact ih (BMap.sorted_insert hs _ _)

theorem run_keys {l done l' : List (Item E M)} {res res' : BMap (ResolvedItem E M)} (h : Run l res done l' res') (k : Str) :
    k ∈ res'.keys ↔ k ∈ res.keys ∨ k ∈ done.map Item.ident := by
  induction h with
  | refl => simp
  | step ht hd hr ih =>
    rw [ih, BMap.mem_keys_insert]
    simp only [List.map_cons, List.mem_cons]
    tauto

theorem run_origin {l done l' : List (Item E M)} {res res' : BMap (ResolvedItem E M)} (h : Run l res done l' res') {k : Str}
    {r : ResolvedItem E M} (hg : res'.get k = some r) : res.get k = some r ∨ (r.item ∈ done ∧ r.item.ident = k) := by
  induction h with
  | refl => exact .inl hg
  | step ht hd hr ih =>
    rcases ih hg with h | ⟨h1, h2⟩
    · rw [BMap.get_insert] at h
      split at h
      · rename_i hk
        injection h with h; subst h
        exact .inr ⟨by simp, hk⟩
      · exact .inl h
    · exact .inr ⟨by simp [h1], h2⟩

theorem run_stable {l done l' : List (Item E M)} {res res' : BMap (ResolvedItem E M)} (h : Run l res done l' res')
    {k : Str} (hk : k ∉ l.map Item.ident) : res'.get k = res.get k := by
  induction h with
  | refl => rfl
  | step ht hd hr ih =>
    obtain ⟨_, l1, l2, rfl, rfl⟩ := takeResolvable_some ht
    simp at hk
    rw [ih (by simp; tauto), BMap.get_insert, if_neg (by tauto)]

theorem run_done {l done l' : List (Item E M)} {res res' : BMap (ResolvedItem E M)} (h : Run l res done l' res')
    (hn : (l.map Item.ident).Nodup) (hd : ∀ k ∈ res.keys, k ∉ l.map Item.ident) :
    ∀ i ∈ done, ∃ d, res'.get i.ident = some ⟨i, d⟩ ∧ resolveDimensions res' i = some d := by
  induction h with
  | refl => simp
  | @step l res x rest d done l' res' ht hdim hr ih =>
    obtain ⟨hres, l1, l2, rfl, rfl⟩ := takeResolvable_some ht
    have hn' : ((l1 ++ l2).map Item.ident).Nodup := hn.sublist (by simp)
    have hx : x.ident ∉ (l1 ++ l2).map Item.ident := by
      have hp : ((l1 ++ x :: l2).map Item.ident).Perm ((x :: (l1 ++ l2)).map Item.ident) :=
        List.Perm.map _ List.perm_middle
      have := hp.nodup_iff.1 hn
      simpa using (List.nodup_cons.1 this).1
    have hd' : ∀ k ∈ (res.insert x.ident ⟨x, d⟩).keys, k ∉ (l1 ++ l2).map Item.ident := by
      intro k hk
      rcases (BMap.mem_keys_insert _ _ _ _).1 hk with rfl | hk
      · exact hx
      · have := hd k hk; simp at this ⊢; tauto
    intro i hi
    rcases List.mem_cons.1 hi with rfl | hi
    · refine ⟨d, ?_, ?_⟩
      · rw [run_stable hr hx, BMap.get_insert, if_pos rfl]
      · rw [← hdim]
        apply resolveDimensions_congr
        intro y hy
        have hyk : y ∈ res.keys := isResolvable_iff.1 hres y hy
        have hyl := hd y hyk
        rw [run_stable hr (by simp at hyl ⊢; tauto), BMap.get_insert, if_neg]
        rintro rfl
        exact hyl (by simp)
    · exact ih hn' hd' i hi

/-! ### Groundedness -/

/-- (name, mentioned identifiers) of every item. -/
def itemDefs (l : List (Item E M)) : List (Str × List Str) := l.map fun i => (i.ident, i.refs)

theorem mem_itemDefs {l : List (Item E M)} {x : Str} {rs : List Str} :
    (x, rs) ∈ itemDefs l ↔ ∃ i ∈ l, i.ident = x ∧ i.refs = rs := by
  simp [itemDefs]

theorem itemDefs_names (l : List (Item E M)) : (itemDefs l).map Prod.fst = l.map Item.ident := by
  simp [itemDefs]

theorem run_grounded {l done l' : List (Item E M)} {res res' : BMap (ResolvedItem E M)} {D : List (Str × List Str)}
    (h : Run l res done l' res') (hl : ∀ i ∈ l, (i.ident, i.refs) ∈ D) (hg : ∀ k ∈ res.keys, Grounded D k) :
    ∀ k ∈ res'.keys, Grounded D k := by
  induction h with
  | refl => exact hg
  | @step l res x rest d done l' res' ht hdim hr ih =>
    obtain ⟨hres, l1, l2, rfl, rfl⟩ := takeResolvable_some ht
    refine ih (fun i hi => hl i ?_) ?_
    · simp at hi ⊢; tauto
    · intro k hk
      rcases (BMap.mem_keys_insert _ _ _ _).1 hk with rfl | hk
      · exact .intro _ _ (hl x (by simp)) fun y hy => hg y (isResolvable_iff.1 hres y hy)
      · exact hg k hk

/-- At the end of the loop exactly the grounded names are in the map, and the remaining items are exactly those that mention a
name that is not grounded. -/
theorem loop_grounded {l done l' : List (Item E M)} {res' : BMap (ResolvedItem E M)} (h : Run l [] done l' res')
    (hend : ∀ i ∈ l', isResolvable res' i = false) :
    (∀ k, k ∈ res'.keys ↔ Grounded (itemDefs l) k) ∧
    (∀ i ∈ l, i ∈ l' ↔ ∃ y ∈ i.refs, ¬ Grounded (itemDefs l) y) := by
  have hp := run_perm h
  have hkeys := run_keys h
  have h1 : ∀ k, Grounded (itemDefs l) k → k ∈ res'.keys := by
    intro k hk
    induction hk with
    | intro x rs hx hrs ih =>
      obtain ⟨i, hi, rfl, rfl⟩ := mem_itemDefs.1 hx
      rw [hkeys]
      right
      rcases List.mem_append.1 (hp.1.mem_iff.1 hi) with hd | hd
      · exact List.mem_map_of_mem (f := Item.ident) hd
      · exact absurd (isResolvable_iff.2 ih) (by simp [hend i hd])
  have h2 : ∀ k ∈ res'.keys, Grounded (itemDefs l) k :=
    run_grounded h (fun i hi => mem_itemDefs.2 ⟨i, hi, rfl, rfl⟩) (by simp [BMap.keys])
  refine ⟨fun k => ⟨h2 k, h1 k⟩, fun i hi => ?_⟩
  constructor
  · intro hi'
    by_contra hc
    push Not at hc
    have := isResolvable_iff.2 fun y hy => h1 y (hc y hy)
    simp [hend i hi'] at this
  · rintro ⟨y, hy, hng⟩
    rcases List.mem_append.1 (hp.1.mem_iff.1 hi) with hd | hd
    · exfalso
      -- an item that was resolved mentions only resolved names
      have : ∀ {l done l' : List (Item E M)} {res res' : BMap (ResolvedItem E M)}, Run l res done l' res' →
          i ∈ done → y ∈ res'.keys := by
        intro l done l' res res' hrun
        induction hrun with
        | refl => simp
        | @step l res x rest d done l' res' ht hdim hr ih =>
          intro hi
          rcases List.mem_cons.1 hi with rfl | hi
          · have := isResolvable_iff.1 (takeResolvable_some ht).1 y hy
            rw [run_keys hr]
            exact .inl ((BMap.mem_keys_insert _ _ _ _).2 (.inr this))
          · exact ih hi
      exact hng (h2 y (this h hd))
    · exact hd

end items

/-! ### Groundedness and cycles -/
section cycles
variable {D : List (Str × List Str)}

theorem Grounded.defined {x : Str} (h : Grounded D x) : x ∈ D.map Prod.fst := by
  cases h with
  | intro _ rs hx _ => exact List.mem_map_of_mem (f := Prod.fst) hx

theorem grounded_mono {D' : List (Str × List Str)} (h : ∀ p ∈ D, p ∈ D') {x : Str} (hx : Grounded D x) : Grounded D' x := by
  induction hx with
  | intro x rs hx _ ih => exact .intro x rs (h _ hx) ih

theorem defs_unique (hn : (D.map Prod.fst).Nodup) {x : Str} {r1 r2 : List Str} (h1 : (x, r1) ∈ D) (h2 : (x, r2) ∈ D) :
    r1 = r2 := by
  induction D with
  | nil => simp at h1
  | cons p D ih =>
    simp only [List.map_cons, List.nodup_cons] at hn
    rcases List.mem_cons.1 h1 with g1 | g1 <;> rcases List.mem_cons.1 h2 with g2 | g2
    · rw [← g1] at g2; injection g2 with _ g2; exact g2.symm
    · rw [← g1] at hn; exact absurd (List.mem_map_of_mem (f := Prod.fst) g2) hn.1
    · rw [← g2] at hn; exact absurd (List.mem_map_of_mem (f := Prod.fst) g1) hn.1
    · exact ih hn.2 g1 g2

theorem grounded_mentions (hn : (D.map Prod.fst).Nodup) {x y : Str} (hx : Grounded D x) (h : Mentions D x y) :
    Grounded D y := by
  cases hx with
  | intro _ rs hx hrs =>
    obtain ⟨rs', h1, h2⟩ := h
    rw [defs_unique hn h1 hx] at h2
    exact hrs y h2

theorem grounded_dependsOn (hn : (D.map Prod.fst).Nodup) {x y : Str} (hx : Grounded D x) (h : DependsOn D x y) :
    Grounded D y := by
  induction h with
  | single h => exact grounded_mentions hn hx h
  | tail _ h ih => exact grounded_mentions hn ih h

theorem grounded_no_cycle (hn : (D.map Prod.fst).Nodup) {x : Str} (hx : Grounded D x) : ¬ DependsOn D x x := by
  induction hx with
  | intro x rs hx hrs ih =>
    intro hc
    have key : ∀ z, DependsOn D x z → ∃ y, y ∈ rs ∧ (y = z ∨ DependsOn D y z) := by
      intro z hz
      induction hz with
      | single h =>
        obtain ⟨rs', h1, h2⟩ := h
        rw [defs_unique hn h1 hx] at h2
        exact ⟨_, h2, .inl rfl⟩
      | tail _ h ih2 =>
        obtain ⟨y, hy, h3⟩ := ih2
        refine ⟨y, hy, .inr ?_⟩
        rcases h3 with rfl | h3
        · exact .single h
        · exact h3.tail h
    obtain ⟨y, hy, h⟩ := key x hc
    have hxy : Mentions D x y := ⟨rs, hx, hy⟩
    rcases h with rfl | h
    · exact ih _ hy (.single hxy)
    · exact ih y hy (h.tail hxy)

/-- A defined name can be computed unless it depends on a cycle or on an undefined name. -/
theorem not_grounded_iff (hn : (D.map Prod.fst).Nodup) {x : Str} (hx : x ∈ D.map Prod.fst) :
    ¬ Grounded D x ↔ DependsOnCycleOrUndefined D x := by
  constructor
  · intro hng
    by_contra hc
    apply hng
    -- names reachable from `x`
    let S := {y : Str // (y = x ∨ DependsOn D x y) ∧ y ∈ D.map Prod.fst}
    have hfin : Finite S := by
      have : Finite {y : Str // y ∈ D.map Prod.fst} := inferInstance
      exact Finite.of_injective (fun s : S => (⟨s.1, s.2.2⟩ : {y : Str // y ∈ D.map Prod.fst}))
        (fun a b hab => Subtype.ext (by simpa using hab))
    let r : S → S → Prop := fun a b => DependsOn D b.1 a.1
    have : IsTrans S r := ⟨fun a b c hab hbc => Relation.TransGen.trans hbc hab⟩
    have : Std.Irrefl r := ⟨fun a ha => by
      rcases a.2.1 with h | h
      · have ha' : DependsOn D a.1 a.1 := ha
        have gen : ∀ z : Str, z = x → DependsOn D z z → False := by
          rintro z rfl hz; exact hc ⟨z, hz, .inl hz⟩
        exact gen a.1 h ha'
      · exact hc ⟨a.1, h, .inl ha⟩⟩
    have hwf : WellFounded r := Finite.wellFounded_of_trans_of_irrefl r
    have main : ∀ s : S, Grounded D s.1 := by
      intro s
      induction s using hwf.induction with
      | _ s ih =>
        obtain ⟨p, hp, hps⟩ := List.mem_map.1 s.2.2
        obtain ⟨y, rs⟩ := p
        simp only at hps; subst hps
        refine .intro _ rs hp fun y' hy' => ?_
        have hm : Mentions D s.1 y' := ⟨rs, hp, hy'⟩
        have hreach : DependsOn D x y' := by
          rcases s.2.1 with h | h
          · rw [← h]; exact .single hm
          · exact h.tail hm
        have hdef : y' ∈ D.map Prod.fst := by
          by_contra hu; exact hc ⟨y', hreach, .inr hu⟩
        exact ih ⟨y', .inr hreach, hdef⟩ (Relation.TransGen.single hm)
    exact main ⟨x, .inl rfl, hx⟩
  · rintro ⟨y, hxy, h⟩ hg
    have hy := grounded_dependsOn hn hg hxy
    rcases h with h | h
    · exact grounded_no_cycle hn hy h
    · exact h hy.defined

end cycles
end Diman
