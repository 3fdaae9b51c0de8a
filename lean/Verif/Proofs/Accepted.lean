import Verif.Proofs.Resolve
import Mathlib.Data.List.Perm.Basic
import Mathlib.Data.List.Count
import Mathlib.Data.List.Dedup
/-! When a unit system is accepted (no diagnostics), and what acceptance means. -/
set_option linter.unusedSectionVars false
namespace Diman
section
variable {E M : Type} [Exponent E] [MagOps E M]

/-! ### The loop does not panic -/

theorem resolveLoop_isSome (l : List (Item E M)) (res : BMap (ResolvedItem E M))
    (h : ∀ done x rest res1, Run l res done rest res1 → x ∈ rest → isResolvable res1 x = true →
      (resolveDimensions res1 x).isSome) : (resolveLoop l res).isSome := by
  induction hn : l.length generalizing l res with
  | zero =>
    have : l = [] := List.eq_nil_of_length_eq_zero hn
    subst this
    rw [resolveLoop]; rfl
  | succ n ih =>
    rw [resolveLoop]
    have hne : l.isEmpty = false := by cases l <;> simp_all
    rw [hne]
    simp only [Bool.false_eq_true, if_false]
    split
    · rename_i x rest ht
      have hx := takeResolvable_some ht
      have hmem : x ∈ l := by obtain ⟨_, l1, l2, e, _⟩ := hx; simp [e]
      have h1 := h [] x l res (.refl _ _) hmem hx.1
      obtain ⟨d, hd⟩ := Option.isSome_iff_exists.1 h1
      simp only [hd, Option.bind_eq_bind, Option.bind_some]
      have hl := takeResolvable_length ht
      exact ih rest _ (fun done y rest' res1 hr => h (x :: done) y rest' res1 (.step ht hd hr)) (by omega)
    · rfl

theorem mem_idents_of_mem_refs {i : Item E M} {l : List (Item E M)} (hi : i ∈ l) (hg : Grounded (itemDefs l) i.ident)
    (hn : (l.map Item.ident).Nodup) : ∀ y ∈ i.refs, Grounded (itemDefs l) y := by
  intro y hy
  exact grounded_mentions (by rwa [itemDefs_names]) hg ⟨i.refs, mem_itemDefs.2 ⟨i, hi, rfl, rfl⟩, hy⟩

/-- `res` gives every item of `l` (and nothing else) the value of its own right-hand side. -/
structure Solution (l : List (Item E M)) (res : BMap (ResolvedItem E M)) : Prop where
  sorted : res.Sorted
  eqn : ∀ i ∈ l, ∃ d, res.get i.ident = some ⟨i, d⟩ ∧ resolveDimensions res i = some d
  only : ∀ k r, res.get k = some r → r.item ∈ l ∧ r.item.ident = k

theorem Solution.unique {l : List (Item E M)} {r1 r2 : BMap (ResolvedItem E M)} (h1 : Solution l r1) (h2 : Solution l r2)
    (hn : (l.map Item.ident).Nodup) (hg : ∀ i ∈ l, Grounded (itemDefs l) i.ident) : r1 = r2 := by
  have key : ∀ x, Grounded (itemDefs l) x → r1.get x = r2.get x := by
    intro x hx
    induction hx with
    | intro x rs hx _ ih =>
      obtain ⟨i, hi, rfl, rfl⟩ := mem_itemDefs.1 hx
      obtain ⟨d1, g1, e1⟩ := h1.eqn i hi
      obtain ⟨d2, g2, e2⟩ := h2.eqn i hi
      have := resolveDimensions_congr ih
      rw [e1, e2] at this
      injection this with this; subst this
      rw [g1, g2]
  refine BMap.ext h1.sorted h2.sorted fun k => ?_
  cases hk1 : r1.get k with
  | some r =>
    obtain ⟨hm, rfl⟩ := h1.only k r hk1
    rw [← hk1]; exact key _ (hg _ hm)
  | none =>
    cases hk2 : r2.get k with
    | none => rfl
    | some r =>
      obtain ⟨hm, rfl⟩ := h2.only k r hk2
      rw [← hk1, ← hk2]; exact key _ (hg _ hm)

theorem loop_solution {l : List (Item E M)} {res : BMap (ResolvedItem E M)} (hn : (l.map Item.ident).Nodup)
    (h : resolveLoop l [] = some (res, [])) : Solution l res ∧ ∀ i ∈ l, Grounded (itemDefs l) i.ident := by
  obtain ⟨done, l', hr, hend, hds⟩ := resolveLoop_run h
  have hl' : l' = [] := by
    cases l' with
    | nil => rfl
    | cons a l' => simp at hds
  subst hl'
  have hp := (run_perm hr).1
  simp only [List.append_nil] at hp
  have hd := run_done hr hn (by simp [BMap.keys])
  have hg := loop_grounded hr hend
  refine ⟨⟨run_sorted hr BMap.sorted_nil, fun i hi => hd i (hp.mem_iff.1 hi), fun k r hk => ?_⟩, fun i hi => ?_⟩
  · rcases run_origin hr hk with h | ⟨h1, h2⟩
    · simp [BMap.get] at h
    · exact ⟨hp.mem_iff.2 h1, h2⟩
  · rw [← hg.1, run_keys hr]
    exact .inr (List.mem_map_of_mem (f := Item.ident) (hp.mem_iff.1 hi))

theorem run_agrees {l done l' : List (Item E M)} {res res' S : BMap (ResolvedItem E M)} (h : Run l res done l' res')
    (hS : ∀ i ∈ l, ∃ d, S.get i.ident = some ⟨i, d⟩ ∧ resolveDimensions S i = some d)
    (hk : ∀ k ∈ res.keys, res.get k = S.get k) : ∀ k ∈ res'.keys, res'.get k = S.get k := by
  induction h with
  | refl => exact hk
  | @step l res x rest d done l' res' ht hdim hr ih =>
    obtain ⟨hres, l1, l2, rfl, rfl⟩ := takeResolvable_some ht
    refine ih (fun i hi => hS i (by simp at hi ⊢; tauto)) ?_
    intro k hkk
    rw [BMap.get_insert]
    obtain ⟨d', g, e⟩ := hS x (by simp)
    have : resolveDimensions res x = resolveDimensions S x :=
      resolveDimensions_congr fun y hy => hk y (isResolvable_iff.1 hres y hy)
    rw [hdim, e] at this
    injection this with this; subst this
    split
    · rename_i hx; subst hx; exact g.symm
    · rename_i hx
      rcases (BMap.mem_keys_insert _ _ _ _).1 hkk with h | h
      · exact absurd h.symm hx
      · exact hk k h

theorem loop_of_solution {l : List (Item E M)} {S : BMap (ResolvedItem E M)} (hS : Solution l S)
    (hn : (l.map Item.ident).Nodup) (hg : ∀ i ∈ l, Grounded (itemDefs l) i.ident) : resolveLoop l [] = some (S, []) := by
  have hsome : (resolveLoop l []).isSome := by
    apply resolveLoop_isSome
    intro done x rest res1 hr hx hres
    have ha := run_agrees hr hS.eqn (by simp [BMap.keys])
    have hxl : x ∈ l := (run_perm hr).2.subset hx
    obtain ⟨d, _, e⟩ := hS.eqn x hxl
    rw [resolveDimensions_congr fun y hy => ha y (isResolvable_iff.1 hres y hy), e]; rfl
  obtain ⟨⟨res, ds⟩, h⟩ := Option.isSome_iff_exists.1 hsome
  obtain ⟨done, l', hr, hend, hds⟩ := resolveLoop_run h
  have hgr := loop_grounded hr hend
  have hl' : l' = [] := by
    cases l' with
    | nil => rfl
    | cons a l' =>
      exfalso
      have ha : a ∈ l := (run_perm hr).2.subset (by simp)
      obtain ⟨y, hy, hng⟩ := (hgr.2 a ha).1 (by simp)
      exact hng (mem_idents_of_mem_refs ha (hg a ha) hn y hy)
  subst hl'
  simp only [List.isEmpty_nil, if_true] at hds
  subst hds
  rw [h, (loop_solution hn h).1.unique hS hn hg]

/-! ### The filters and checks -/

/-- Every item that was generated from another unit comes with that unit. -/
def AutoOk (l : List (Item E M)) : Prop := ∀ i ∈ l, ∀ o, i.autogeneratedFrom = some o → o ∈ l.map Item.ident

theorem filterAutogenerated_eq {l : List (Item E M)} (h : AutoOk l) : filterAutogenerated l = l := by
  unfold filterAutogenerated
  rw [List.filter_eq_self]
  intro i hi
  cases ha : i.autogeneratedFrom with
  | none => rfl
  | some o => simp only [unresolvedIdents]; exact List.elem_eq_true_of_mem (h i hi o ha)

theorem firstUndefined_none {defined : List Str} {i : Item E M} :
    firstUndefined defined i = none ↔ ∀ x ∈ i.refs, x ∈ defined := by
  unfold firstUndefined
  rw [List.find?_eq_none]
  simp

theorem filterUndefined_nil {l : List (Item E M)} :
    (filterUndefined l).2 = [] ↔ ∀ i ∈ l, ∀ x ∈ i.refs, x ∈ l.map Item.ident := by
  unfold filterUndefined
  simp only
  have : (List.filterMap (firstUndefined (unresolvedIdents l)) l).isEmpty = true ↔
      ∀ i ∈ l, ∀ x ∈ i.refs, x ∈ l.map Item.ident := by
    rw [List.isEmpty_iff, List.filterMap_eq_nil_iff]
    simp only [firstUndefined_none, unresolvedIdents]
  split
  · rename_i h; simp only [true_iff]; exact this.1 h
  · rename_i h; simp only [reduceCtorEq, false_iff]; exact fun hc => h (this.2 hc)

theorem filterUndefined_eq {l : List (Item E M)} (h : (filterUndefined l).2 = []) : (filterUndefined l).1 = l := by
  rw [filterUndefined_nil] at h
  unfold filterUndefined
  simp only [List.filter_eq_self]
  intro i hi
  have := firstUndefined_none.2 (h i hi)
  simp [unresolvedIdents, this]

theorem mem_dedup {x : Str} {l : List Str} : x ∈ dedup l ↔ x ∈ l := by
  induction l with
  | nil => simp [dedup]
  | cons a l ih =>
    simp only [dedup, List.mem_cons, List.mem_filter, ih, decide_eq_true_eq]
    by_cases h : x = a <;> simp [h]

theorem dedup_nodup (l : List Str) : (dedup l).Nodup := by
  induction l with
  | nil => simp [dedup]
  | cons a l ih =>
    simp only [dedup, List.nodup_cons, List.mem_filter]
    exact ⟨by simp, ih.filter _⟩

theorem multiplyDefined_nil {l : List (Item E M)} : multiplyDefined l = [] ↔ (l.map Item.ident).Nodup := by
  unfold multiplyDefined
  simp only
  rw [List.nodup_iff_count_le_one]
  have : (((dedup (l.map Item.ident)).filter fun x => decide (1 < (l.map Item.ident).count x)).map
      fun x => (l.map Item.ident).filter (· = x)).isEmpty = true ↔ ∀ a, (l.map Item.ident).count a ≤ 1 := by
    rw [List.isEmpty_iff, List.map_eq_nil_iff, List.filter_eq_nil_iff]
    simp only [decide_eq_true_eq, not_lt]
    constructor
    · intro h a
      by_cases ha : a ∈ l.map Item.ident
      · exact h a (mem_dedup.2 ha)
      · rw [List.count_eq_zero.2 ha]; omega
    · intro h a _; exact h a
  split
  · rename_i h; simp only [true_iff]; exact this.1 h
  · rename_i h; simp only [reduceCtorEq, false_iff]; exact fun hc => h (this.2 hc)

theorem kindOf_of_mem {l : List (Item E M)} (hn : (l.map Item.ident).Nodup) {i : Item E M} (hi : i ∈ l) :
    kindOf l i.ident = some i.kind := by
  unfold kindOf
  have : (l.reverse.find? fun j => decide (j.ident = i.ident)) = some i := by
    have hn' : (l.reverse.map Item.ident).Nodup := by
      rw [List.map_reverse]; exact List.nodup_reverse.2 hn
    have hi' : i ∈ l.reverse := List.mem_reverse.2 hi
    generalize l.reverse = m at hn' hi'
    induction m with
    | nil => simp at hi'
    | cons a m ih =>
      simp only [List.map_cons, List.nodup_cons] at hn'
      rcases List.mem_cons.1 hi' with rfl | hi'
      · simp
      · have : a.ident ≠ i.ident := fun hc => hn'.1 (hc ▸ List.mem_map_of_mem (f := Item.ident) hi')
        simp only [List.find?_cons, this, decide_false]
        exact ih hn'.2 hi'
  rw [this]; rfl

theorem checkKinds_nil {l : List (Item E M)} (hn : (l.map Item.ident).Nodup) :
    checkKinds l = [] ↔ ∀ i ∈ l, ∀ j ∈ l, j.ident ∈ i.refs → i.kind.allows j.kind = true := by
  unfold checkKinds
  rw [List.flatMap_eq_nil_iff]
  constructor
  · intro h i hi j hj hr
    have h1 := h i hi
    rw [List.filterMap_eq_nil_iff] at h1
    have h2 := h1 j.ident hr
    rw [kindOf_of_mem hn hj] at h2
    simp only at h2
    by_contra hc
    simp [hc] at h2
  · intro h i hi
    rw [List.filterMap_eq_nil_iff]
    intro x hx
    cases hk : kindOf l x with
    | none => rfl
    | some k =>
      simp only
      have hmem : ∃ j ∈ l, j.ident = x ∧ j.kind = k := by
        unfold kindOf at hk
        rw [Option.map_eq_some_iff] at hk
        obtain ⟨j, hj, hk⟩ := hk
        have h1 := List.find?_some hj
        have h2 := List.mem_of_find?_eq_some hj
        exact ⟨j, List.mem_reverse.1 h2, by simpa using h1, hk⟩
      obtain ⟨j, hj, rfl, rfl⟩ := hmem
      rw [if_pos (h i hi j hj hx)]

theorem resolveItems_nil {l : List (Item E M)} {res : BMap (ResolvedItem E M)} (ha : AutoOk l) :
    resolveItems l = some (res, []) ↔
      (∀ i ∈ l, ∀ x ∈ i.refs, x ∈ l.map Item.ident) ∧ (l.map Item.ident).Nodup ∧
      (∀ i ∈ l, ∀ j ∈ l, j.ident ∈ i.refs → i.kind.allows j.kind = true) ∧
      (∀ i ∈ l, Grounded (itemDefs l) i.ident) ∧ Solution l res ∧ checkAnnotations res = [] := by
  constructor
  · intro h
    unfold resolveItems at h
    simp only [bindM_eq_some, pure_eq_some, Prod.exists] at h
    obtain ⟨res', d4, h1, h2⟩ := h
    injection h2 with h2 h3
    subst h2
    simp only [List.append_eq_nil_iff] at h3
    obtain ⟨⟨⟨⟨e1, e2⟩, e3⟩, e4⟩, e5⟩ := h3
    subst e4
    have hu := filterUndefined_eq e1
    rw [hu, filterAutogenerated_eq ha] at e2
    rw [hu, filterAutogenerated_eq ha, filterAutogenerated_eq ha] at e3
    rw [hu, filterAutogenerated_eq ha, filterAutogenerated_eq ha, filterAutogenerated_eq ha] at h1
    have hn := multiplyDefined_nil.1 e2
    have hs := loop_solution hn h1
    exact ⟨filterUndefined_nil.1 e1, hn, (checkKinds_nil hn).1 e3, hs.2, hs.1, e5⟩
  · rintro ⟨h1, h2, h3, h4, h5, h6⟩
    unfold resolveItems
    have e1 := filterUndefined_nil.2 h1
    have hu := filterUndefined_eq e1
    simp only [hu, filterAutogenerated_eq ha, e1, multiplyDefined_nil.2 h2, (checkKinds_nil h2).2 h3,
      loop_of_solution h5 h2 h4]
    simp [h6]

/-- The dimensions named by the base attributes of the units that were written (not generated). -/
def baseOf (us : List (UnitEntry E M)) : List Str :=
  us.filterMap fun u => if u.autogeneratedFrom.isSome then none else match u.definition with
    | .base d => some d
    | .expression _ => none

theorem checkBaseUnits_nil {bd : List Str} {us : List (UnitEntry E M)} {c : Str → Nat} :
    checkBaseUnits bd c us = [] ↔ (∀ d ∈ baseOf us, d ∈ bd) ∧ ∀ d ∈ baseOf us, c d + (baseOf us).count d ≤ 1 := by
  induction us generalizing c with
  | nil => simp [checkBaseUnits, baseOf]
  | cons u us ih =>
    unfold checkBaseUnits
    by_cases hu : u.autogeneratedFrom.isSome = true
    · rw [if_pos hu, ih]; simp [baseOf, hu]
    · rw [if_neg hu]
      cases hd : u.definition with
      | expression e => simp only; rw [ih]; simp [baseOf, hu, hd]
      | base d =>
        have hb : baseOf (u :: us) = d :: baseOf us := by simp [baseOf, hu, hd]
        simp only
        by_cases hm : bd.contains d = true
        · rw [if_pos hm, List.append_eq_nil_iff, ih, hb]
          have hm' : d ∈ bd := by simpa using hm
          constructor
          · rintro ⟨h1, h2, h3⟩
            have hc : c d = 0 := by
              by_contra hc
              rw [if_pos (by omega)] at h1; simp at h1
            have hcnt : (baseOf us).count d = 0 := by
              by_contra hne
              have hmem : d ∈ baseOf us := by
                by_contra hmm; exact hne (List.count_eq_zero.2 hmm)
              have := h3 d hmem
              simp only [if_true] at this
              have hpos := List.count_pos_iff.2 hmem
              omega
            refine ⟨?_, ?_⟩
            · intro x hx
              rcases List.mem_cons.1 hx with rfl | hx
              · exact hm'
              · exact h2 x hx
            · intro x hx
              by_cases hxd : x = d
              · subst hxd; rw [List.count_cons_self, hcnt, hc]
              · rcases List.mem_cons.1 hx with h | hx
                · exact absurd h hxd
                · have := h3 x hx
                  rw [if_neg hxd] at this
                  rw [List.count_cons_of_ne (Ne.symm hxd)]; exact this
          · rintro ⟨h1, h2⟩
            have hd0 := h2 d (by simp)
            rw [List.count_cons_self] at hd0
            refine ⟨?_, fun x hx => h1 x (by simp [hx]), fun x hx => ?_⟩
            · rw [if_neg (by omega)]
            · have := h2 x (by simp [hx])
              by_cases hxd : x = d
              · subst hxd; rw [List.count_cons_self] at this; simp only [if_true]; omega
              · rw [List.count_cons_of_ne (Ne.symm hxd)] at this; simp only [hxd, if_false]; exact this
        · rw [if_neg hm, hb]
          constructor
          · intro h; simp at h
          · rintro ⟨h1, _⟩
            exact absurd (h1 d (by simp)) (by simpa using hm)

theorem checkSymbols_nil {us : List (UnitEntry E M)} : checkSymbols us = [] ↔ (us.filterMap UnitEntry.symbol).Nodup := by
  unfold checkSymbols
  simp only
  rw [List.map_eq_nil_iff, List.filter_eq_nil_iff, List.nodup_iff_count_le_one]
  simp only [decide_eq_true_eq, not_lt]
  constructor
  · intro h a
    by_cases ha : a ∈ us.filterMap UnitEntry.symbol
    · exact h a (mem_dedup.2 ha)
    · rw [List.count_eq_zero.2 ha]; omega
  · intro h a _; exact h a

theorem getSingleIdent_nil {l : List Str} {n d x : Str} : getSingleIdent l n d = (x, []) ↔ l = [x] := by
  unfold getSingleIdent
  constructor
  · intro h
    match l, h with
    | [], h => simp at h
    | [y], h => simp at h; rw [h]
    | y :: z :: l, h => simp at h
  · rintro rfl; rfl

/-! ### Acceptance -/

/-- The units were produced by template expansion as far as provenance goes: a generated unit's origin is among the units. -/
def Unresolved.AutoOk (u : UnresolvedDefs E M) : Prop :=
  ∀ x ∈ u.units, ∀ o, x.autogeneratedFrom = some o → o ∈ u.units.map UnitEntry.name

theorem allItems_ident (u : UnresolvedDefs E M) : (allItems u).map Item.ident = u.names := by
  unfold allItems Unresolved.names
  simp only [List.map_append, List.map_map]
  rfl

theorem allItems_autoOk {u : UnresolvedDefs E M} (h : u.AutoOk) : AutoOk (allItems u) := by
  intro i hi o ho
  rw [allItems_ident]
  unfold allItems at hi
  simp only [List.mem_append, List.mem_map] at hi
  rcases hi with (⟨d, _, rfl⟩ | ⟨x, hx, rfl⟩) | ⟨c, _, rfl⟩
  · simp [Item.ofDimension, Item.autogeneratedFrom] at ho
  · have := h x hx o ho
    simp only [Unresolved.names, List.mem_append]; tauto
  · simp [Item.ofConstant, Item.autogeneratedFrom] at ho

theorem ofDimension_refs (d : DimensionEntry E) : (Item.ofDimension (M := M) d).refs = d.mentions := by
  rw [Item.refs_eq]
  unfold Item.ofDimension DimensionEntry.mentions
  cases d.rhs with
  | base b => rfl
  | expression e => exact Expr.idents_mapConcrete _ e

theorem ofUnit_refs (x : UnitEntry E M) : (Item.ofUnit x).refs = x.mentions := by
  rw [Item.refs_eq]
  unfold Item.ofUnit UnitEntry.mentions
  cases x.definition with
  | base b => rfl
  | expression e => exact Expr.idents_mapConcrete _ e

theorem ofConstant_refs (c : ConstantEntry E M) : (Item.ofConstant c).refs = c.mentions := by
  rw [Item.refs_eq]
  exact Expr.idents_mapConcrete _ _

theorem itemDefs_allItems (u : UnresolvedDefs E M) : itemDefs (allItems u) = u.definitions := by
  unfold itemDefs allItems Unresolved.definitions
  simp only [List.map_append, List.map_map, Function.comp_def, ofDimension_refs, ofUnit_refs, ofConstant_refs]
  rfl

theorem resolveDefs_nil {u : UnresolvedDefs E M} {defs : Defs E M} :
    resolveDefs u = some (defs, []) ↔
      u.quantityTypes = [defs.quantityType] ∧ u.dimensionTypes = [defs.dimensionType] ∧
      checkBaseUnits ((u.dimensions.filter DimensionEntry.isBase).map DimensionEntry.name) (fun _ => 0) u.units = [] ∧
      checkSymbols u.units = [] ∧ defs.baseDimensions = baseDimensions u.dimensions ∧
      ∃ res, resolveItems (allItems u) = some (res, []) ∧ getDimensions res = some defs.dimensions ∧
        getUnits res = some defs.units ∧ getConstants res = some defs.constants ∧ checkBaseSymbols defs.units = [] := by
  unfold resolveDefs
  simp only [bindM_eq_some, pure_eq_some, Prod.exists]
  constructor
  · rintro ⟨res, e5, h1, dims, h2, units, h3, consts, h4, h⟩
    injection h with hd he
    subst hd
    simp only [List.append_eq_nil_iff] at he
    obtain ⟨⟨⟨⟨⟨a1, a2⟩, a3⟩, a4⟩, rfl⟩, a6⟩ := he
    refine ⟨getSingleIdent_nil.1 (Prod.ext rfl a1), getSingleIdent_nil.1 (Prod.ext rfl a2), a3, a4, rfl, res, h1, h2, h3, h4, a6⟩
  · rintro ⟨h1, h2, h3, h4, h5, res, g1, g2, g3, g4, g5⟩
    refine ⟨res, [], g1, defs.dimensions, g2, defs.units, g3, defs.constants, g4, ?_⟩
    rw [h1, h2, h3, h4, g5]
    cases defs
    simp only at h5
    subst h5
    rfl

end
end Diman
