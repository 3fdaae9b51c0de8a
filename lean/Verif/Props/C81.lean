import Verif.Spec.Culprits
import Verif.Props.C80
import Verif.Props.C11
import Verif.Props.C48Exact
/-!
# C81 The reports name every culprit
One run of the macro on a faulty unit system reports so much that whatever it does not complain about is in order.
-/
set_option linter.unusedSectionVars false
namespace Diman

section
variable {E M : Type} [Exponent E] [MagOps E M]

theorem List.Subperm.filter_of_all {α : Type} {l L : List α} (h : l.Subperm L) (p : α → Bool) (hp : ∀ i ∈ l, p i = true) : l.Subperm (L.filter p) := by
  have := List.Subperm.filter p h
  rwa [List.filter_eq_self.2 hp] at this

/-- What the loop leaves in the map for the items whose names, and the names they mention, occur once. -/
theorem run_done_part {P : Str → Prop} {l done l' : List (Item E M)} {res res' : BMap (ResolvedItem E M)} (h : Run l res done l' res')
    (hn : ∀ k, P k → (l.map Item.ident).count k ≤ 1) (hd : ∀ k ∈ res.keys, P k → k ∉ l.map Item.ident) :
    ∀ i ∈ done, P i.ident → (∀ y ∈ i.refs, P y) → ∃ d, res'.get i.ident = some ⟨i, d⟩ ∧ resolveDimensions res' i = some d := by
  induction h with
  | refl => simp
  | @step l res x rest d done l' res' ht hdim hr ih =>
    obtain ⟨hres, l1, l2, rfl, rfl⟩ := takeResolvable_some ht
    have hp : ((l1 ++ x :: l2).map Item.ident).Perm (x.ident :: (l1 ++ l2).map Item.ident) := by
      simp
    have hn' : ∀ k, P k → ((l1 ++ l2).map Item.ident).count k ≤ 1 := fun k hk => by
      have := hn k hk
      rw [hp.count_eq, List.count_cons] at this
      omega
    have hx : P x.ident → x.ident ∉ (l1 ++ l2).map Item.ident := fun hk hm => by
      have h1 := hn _ hk
      rw [hp.count_eq, List.count_cons, if_pos (by simp)] at h1
      have h2 := List.count_pos_iff.2 hm
      omega
    have hd' : ∀ k ∈ (res.insert x.ident ⟨x, d⟩).keys, P k → k ∉ (l1 ++ l2).map Item.ident := by
      intro k hk hP
      rcases (BMap.mem_keys_insert _ _ _ _).1 hk with rfl | hk
      · exact hx hP
      · have := hd k hk hP; simp at this ⊢; tauto
    intro i hi hP hPr
    rcases List.mem_cons.1 hi with rfl | hi
    · refine ⟨d, ?_, ?_⟩
      · rw [run_stable hr (hx hP), BMap.get_insert, if_pos rfl]
      · rw [← hdim]
        apply resolveDimensions_congr
        intro y hy
        have hyk : y ∈ res.keys := isResolvable_iff.1 hres y hy
        have hyl := hd y hyk (hPr y hy)
        rw [run_stable hr (by simp at hyl ⊢; tauto), BMap.get_insert, if_neg]
        rintro rfl
        exact hyl (by simp)
    · exact ih hn' hd' i hi hP hPr

theorem kindOf_of_once {l : List (Item E M)} {i : Item E M} (hi : i ∈ l) (hc : (l.map Item.ident).count i.ident ≤ 1) :
    kindOf l i.ident = some i.kind := by
  unfold kindOf
  cases h : l.reverse.find? (fun j => j.ident = i.ident) with
  | none =>
    have := List.find?_eq_none.1 h i (List.mem_reverse.2 hi)
    simp at this
  | some j =>
    have h1 : j.ident = i.ident := by simpa using List.find?_some h
    have hj : j ∈ l := List.mem_reverse.1 (List.mem_of_find?_eq_some h)
    have : j = i := by
      by_contra hne
      obtain ⟨l1, l2, rfl⟩ := List.append_of_mem hi
      rw [List.map_append, List.map_cons, List.count_append, List.count_cons] at hc
      have hj' : j ∈ l1 ∨ j ∈ l2 := by simp at hj; tauto
      have : 0 < (l1.map Item.ident).count i.ident ∨ 0 < (l2.map Item.ident).count i.ident :=
        hj'.imp (fun h => List.count_pos_iff.2 (h1 ▸ List.mem_map_of_mem (f := Item.ident) h))
          fun h => List.count_pos_iff.2 (h1 ▸ List.mem_map_of_mem (f := Item.ident) h)
      simp at hc
      omega
    rw [this]; rfl

/-- Base units that are not complained about: at most one for each base dimension. -/
theorem checkBaseUnits_once {bd : List Str} {us : List (UnitEntry E M)} {c : Str → Nat} {B : Str → Bool}
    (hB : ∀ r ∈ checkBaseUnits bd c us, ∀ x ∈ r.blames, B x = true) (d : Str) :
    (baseOf (us.filter fun x => !B x.name)).count d ≤ if c d = 0 then 1 else 0 := by
  induction us generalizing c with
  | nil => simp [baseOf]
  | cons x us ih =>
    unfold checkBaseUnits at hB
    have skip : baseOf ((x :: us).filter fun x => !B x.name) = baseOf (us.filter fun x => !B x.name) ∨
        (B x.name = false ∧ x.autogeneratedFrom.isSome = false ∧ ∃ e, x.definition = .base e ∧
          baseOf ((x :: us).filter fun x => !B x.name) = e :: baseOf (us.filter fun x => !B x.name)) := by
      rw [List.filter_cons]
      cases hb : B x.name with
      | true => left; simp
      | false =>
        simp only [Bool.not_false, if_true]
        cases ha : x.autogeneratedFrom.isSome with
        | true => left; simp [baseOf, ha]
        | false =>
          cases hdef : x.definition with
          | expression e => left; simp [baseOf, ha, hdef]
          | base e => right; exact ⟨trivial, rfl, e, rfl, by simp [baseOf, ha, hdef]⟩
    split at hB
    · rename_i ha
      rcases skip with h | ⟨_, h, _⟩
      · rw [h]; exact ih hB
      · rw [ha] at h; simp at h
    · split at hB
      · rename_i e he
        split at hB
        · have hB2 : ∀ r ∈ checkBaseUnits bd (fun y => if y = e then c y + 1 else c y) us, ∀ y ∈ r.blames, B y = true :=
            fun r hr => hB r (List.mem_append_right _ hr)
          have := ih hB2
          rcases skip with h | ⟨h1, _, e', h2, h3⟩
          · rw [h]
            refine le_trans this ?_
            split <;> split <;> simp_all
          · rw [he] at h2
            injection h2 with h2
            subst h2
            rw [h3, List.count_cons]
            by_cases hde : e = d
            · subst hde
              have h0 : c e = 0 := by
                by_contra hc
                have hmem : Diag.multipleBaseUnits e x.name ∈ (if 1 < c e + 1 then [Diag.multipleBaseUnits e x.name] else []) := by
                  rw [if_pos (by omega)]; simp
                have := hB _ (List.mem_append_left _ hmem) x.name (by simp [Diag.blames])
                rw [h1] at this
                simp at this
              simp [h0] at this ⊢
              exact this
            · simp only [if_neg (Ne.symm hde)] at this
              simpa [hde] using this
        · rename_i hno
          have hb : B x.name = true := hB _ (List.mem_cons_self) x.name (by simp [Diag.blames])
          rcases skip with h | ⟨h, _⟩
          · rw [h]; exact ih fun r hr => hB r (List.mem_cons_of_mem _ hr)
          · rw [hb] at h; simp at h
      · rename_i e he
        rcases skip with h | ⟨_, _, e', h, _⟩
        · rw [h]; exact ih hB
        · rw [he] at h; simp at h

theorem checkBaseUnits_nonbase {bd : List Str} {us : List (UnitEntry E M)} {c : Str → Nat} {x : UnitEntry E M} (hx : x ∈ us)
    (ha : x.autogeneratedFrom.isSome = false) {d : Str} (hdef : x.definition = .base d) (hd : d ∉ bd) :
    .baseUnitForNonBase d x.name ∈ checkBaseUnits bd c us := by
  induction us generalizing c with
  | nil => simp at hx
  | cons y us ih =>
    unfold checkBaseUnits
    rcases List.mem_cons.1 hx with rfl | hx
    · simp [ha, hdef, hd]
    · split
      · exact ih hx
      · split
        · split
          · exact List.mem_append_right _ (ih hx)
          · exact List.mem_cons_of_mem _ (ih hx)
        · exact ih hx

theorem symbolMultiple_mem {us : List (UnitEntry E M)} {s : Str} (h : 1 < (us.filterMap UnitEntry.symbol).count s) :
    .symbolMultiple s ((us.filter fun u => u.symbol = some s).map UnitEntry.name) ∈ checkSymbols us := by
  unfold checkSymbols
  refine List.mem_map.2 ⟨s, List.mem_filter.2 ⟨mem_dedup.2 (List.count_pos_iff.1 (by omega)), by simpa using h⟩, rfl⟩

/-- The same about the expanded statements. -/
structure Part (u r : UnresolvedDefs E M) (ds : List Diag) : Prop where
  dimensions : r.dimensions.Subperm u.dimensions
  units : r.units.Subperm u.units
  constants : r.constants.Subperm u.constants
  refs : ∀ i ∈ allItems r, ∀ x ∈ i.refs, x ∈ r.names
  annotated : ∀ i ∈ allItems r, ∀ a, i.annotation = some a → a ∈ r.names
  names : ∀ d ∈ ds, ∀ x ∈ d.blames, x ∉ r.names
  annotations : ∀ a kind, .wrongTypeInAnnotation a kind ∈ ds → ∀ i ∈ allItems r, i.annotation ≠ some a
  auto : r.AutoOk

theorem Part.items {u r : UnresolvedDefs E M} {ds : List Diag} (h : Part u r ds) : (allItems r).Subperm (allItems u) :=
  List.Subperm.append' (List.Subperm.append' (List.Subperm.map' _ h.dimensions) (List.Subperm.map' _ h.units)) (List.Subperm.map' _ h.constants)

theorem filterAutogenerated_keeps {l L : List (Item E M)} (h : l.Subperm L) (ha : AutoOk l) : l.Subperm (filterAutogenerated L) := by
  refine List.Subperm.filter_of_all h _ fun i hi => ?_
  cases ho : i.autogeneratedFrom with
  | none => rfl
  | some o =>
    obtain ⟨j, hj, e⟩ := List.mem_map.1 (ha i hi o ho)
    exact List.contains_iff_mem.2 (List.mem_map.2 ⟨j, h.subset hj, e⟩)

theorem Part.accepted {u r : UnresolvedDefs E M} {defs : Defs E M} {ds : List Diag} (run : resolveDefs u = some (defs, ds)) (h : Part u r ds)
    (quantityType : r.quantityTypes.length = 1) (dimensionType : r.dimensionTypes.length = 1) : ∃ defs', resolveDefs r = some (defs', []) ∧
      (∀ D ∈ defs'.dimensions, D ∈ defs.dimensions) ∧ (∀ U ∈ defs'.units, U ∈ defs.units) ∧ (∀ C ∈ defs'.constants, C ∈ defs.constants) := by
  obtain ⟨res', d4', hl', hdims, hunits', hconsts, -⟩ := resolveDefs_diags run
  obtain ⟨res, d4, hloop, hunits, o4, o5, o6, o7, o8, o9, o2, o12⟩ := diag_origin run
  rw [hl'] at hloop
  injection hloop with hloop
  injection hloop with e1 e2
  subst e1; subst e2
  have hauto := allItems_autoOk h.auto
  -- the items of `r` pass the filters
  have sub1 : (allItems r).Subperm (filterUndefined (allItems u)).1 := by
    refine List.Subperm.filter_of_all h.items _ fun i hi => ?_
    simp only [Option.isNone_iff_eq_none, firstUndefined]
    rw [List.find?_eq_none]
    intro x hx
    obtain ⟨j, hj, e⟩ := mem_names.1 (h.refs i hi x hx)
    simp only [unresolvedIdents, Bool.not_eq_true', Bool.not_eq_false, List.contains_iff_mem]
    exact e ▸ List.mem_map_of_mem (f := Item.ident) (h.items.subset hj)
  have sub2 := filterAutogenerated_keeps sub1 hauto
  have sub3 := filterAutogenerated_keeps sub2 hauto
  have sub4 := filterAutogenerated_keeps sub3 hauto
  -- their names occur once
  have once2 : ∀ k ∈ r.names, ((filterAutogenerated (filterUndefined (allItems u)).1).map Item.ident).count k ≤ 1 := by
    intro k hk
    by_contra hc
    obtain ⟨gs, hg, g, hgg, hkg⟩ := mem_multiplyDefined.2 (not_le.1 hc)
    exact h.names _ ((o6 _ rfl).2 hg) k (List.mem_flatten.2 ⟨g, hgg, hkg⟩) hk
  have le3 : ∀ k, ((filterAutogenerated (filterAutogenerated (filterUndefined (allItems u)).1)).map Item.ident).count k ≤
      ((filterAutogenerated (filterUndefined (allItems u)).1).map Item.ident).count k := fun k =>
    (List.Sublist.map _ List.filter_sublist).count_le k
  have le4 : ∀ k, ((survivors (allItems u)).map Item.ident).count k ≤
      ((filterAutogenerated (filterAutogenerated (filterUndefined (allItems u)).1)).map Item.ident).count k := fun k =>
    (List.Sublist.map _ List.filter_sublist).count_le k
  have once4 : ∀ k ∈ r.names, ((survivors (allItems u)).map Item.ident).count k ≤ 1 := fun k hk =>
    le_trans (le4 k) (le_trans (le3 k) (once2 k hk))
  have nodup : r.names.Nodup := by
    rw [List.nodup_iff_count_le_one]
    intro k
    by_cases hk : k ∈ r.names
    · refine le_trans ?_ (once2 k hk)
      rw [← allItems_ident]
      exact (List.Subperm.map' Item.ident sub2).count_le k
    · rw [List.count_eq_zero.2 hk]; omega
  -- they are resolved
  obtain ⟨done, rest, hrun, hend, hd4⟩ := resolveLoop_run hl'
  have resolved : ∀ i ∈ allItems r, ∃ d, res'.get i.ident = some ⟨i, d⟩ ∧ resolveDimensions res' i = some d := by
    intro i hi
    have hin : i.ident ∈ r.names := mem_names.2 ⟨i, hi, rfl⟩
    refine run_done_part (P := fun k => k ∈ r.names) hrun once4 (by simp [BMap.keys]) i ?_ hin (h.refs i hi)
    rcases List.mem_append.1 ((run_perm hrun).1.mem_iff.1 (sub4.subset hi)) with hd | hd
    · exact hd
    · exfalso
      have hne : rest.isEmpty = false := by cases rest <;> simp_all
      rw [hne] at hd4
      simp only [Bool.false_eq_true, if_false] at hd4
      refine h.names (.unresolvable (rest.map Item.ident)) ((o8 _ rfl).2 (by rw [hd4]; simp)) i.ident ?_ hin
      exact List.mem_map_of_mem (f := Item.ident) hd
  have sorted : res'.Sorted := run_sorted hrun (by simp [BMap.Sorted, BMap.keys])
  have groundedBig : ∀ k ∈ res'.keys, Grounded (itemDefs (survivors (allItems u))) k := fun k hk => ((loop_grounded hrun hend).1 k).1 hk
  let res : BMap (ResolvedItem E M) := res'.filter fun e => decide (e.1 ∈ r.names)
  have hget : ∀ k, res.get k = if k ∈ r.names then res'.get k else none := fun k => by
    have := BMap.get_filter res' (fun k => decide (k ∈ r.names)) k
    simpa using this
  have hS : Solution (allItems r) res := by
    refine ⟨List.Pairwise.sublist (List.filter_sublist.map _) sorted, fun i hi => ?_, fun k q hk => ?_⟩
    · obtain ⟨d, g, e⟩ := resolved i hi
      refine ⟨d, ?_, ?_⟩
      · rw [hget, if_pos (mem_names.2 ⟨i, hi, rfl⟩), g]
      · rw [← e]
        exact resolveDimensions_congr fun x hx => by rw [hget, if_pos (h.refs i hi x hx)]
    · rw [hget] at hk
      split at hk
      · rename_i hn
        obtain ⟨j, hj, rfl⟩ := mem_names.1 hn
        obtain ⟨d, g, _⟩ := resolved j hj
        rw [g] at hk
        injection hk with hk
        subst hk
        exact ⟨hj, rfl⟩
      · simp at hk
  have grounded : ∀ x, Grounded (itemDefs (survivors (allItems u))) x → x ∈ r.names → Grounded r.definitions x := by
    intro x hx
    induction hx with
    | intro x rs hx _ ih =>
      intro hn
      obtain ⟨i, hi, rfl⟩ := mem_names.1 hn
      obtain ⟨j, hj, e1, e2⟩ := mem_itemDefs.1 hx
      have : j = i := by
        have hc := once4 i.ident hn
        obtain ⟨l1, l2, hl⟩ := List.append_of_mem (sub4.subset hi)
        change survivors (allItems u) = _ at hl
        rw [hl] at hj hc
        by_contra hne
        rw [List.map_append, List.map_cons, List.count_append, List.count_cons] at hc
        have hj' : j ∈ l1 ∨ j ∈ l2 := by simp at hj; tauto
        have : 0 < (l1.map Item.ident).count i.ident ∨ 0 < (l2.map Item.ident).count i.ident :=
          hj'.imp (fun h => List.count_pos_iff.2 (e1 ▸ List.mem_map_of_mem (f := Item.ident) h))
            fun h => List.count_pos_iff.2 (e1 ▸ List.mem_map_of_mem (f := Item.ident) h)
        simp at hc
        omega
      subst this
      subst e2
      exact .intro _ _ (item_definition hi) fun y hy => ih y hy (h.refs _ hi y hy)
  obtain ⟨Ds, hd⟩ := Option.isSome_iff_exists.1 (getDimensions_isSome res)
  obtain ⟨Us, hun⟩ := Option.isSome_iff_exists.1 (getUnits_isSome res)
  obtain ⟨Cs, hc⟩ := Option.isSome_iff_exists.1 (getConstants_isSome res)
  obtain ⟨qt, hqt⟩ := List.length_eq_one_iff.1 quantityType
  obtain ⟨dt, hdt⟩ := List.length_eq_one_iff.1 dimensionType
  -- what was generated from them was generated before
  have oldDimension : ∀ x ∈ r.dimensions, ∀ dm, res'.get x.name = some ⟨.ofDimension x, dm⟩ → ⟨x.name, dm.dims⟩ ∈ defs.dimensions := by
    intro x hx dm g
    unfold getDimensions at hdims
    have hmem : (x.name, (⟨.ofDimension x, dm⟩ : ResolvedItem E M)) ∈ res'.filter (fun q => decide (q.2.item.kind = .dimension)) := by
      rw [List.mem_filter]
      exact ⟨(BMap.mem_iff_get sorted).2 g, by simp⟩
    obtain ⟨U, hU, hr⟩ := forall₂_mem_left (mapM_option_some hdims) hmem
    simp [Item.ofDimension] at hr
    rw [hr]; exact hU
  have oldUnit : ∀ x ∈ r.units, ∀ dm, res'.get x.name = some ⟨.ofUnit x, dm⟩ → x.toDef dm ∈ defs.units := by
    intro x hx dm g
    unfold getUnits at hunits
    have hmem : (x.name, (⟨.ofUnit x, dm⟩ : ResolvedItem E M)) ∈
        res'.filter (fun q => decide (q.2.item.kind = .unit) || decide (q.2.item.kind = .baseUnit)) := by
      rw [List.mem_filter]
      exact ⟨(BMap.mem_iff_get sorted).2 g, by rcases ofUnit_kind x with h | h <;> simp [h]⟩
    obtain ⟨U, hU, hr⟩ := forall₂_mem_left (mapM_option_some hunits) hmem
    simp [Item.ofUnit] at hr
    have : x.toDef dm = U := by rw [← hr]; rfl
    rw [this]; exact hU
  have oldConstant : ∀ x ∈ r.constants, ∀ dm, res'.get x.name = some ⟨.ofConstant x, dm⟩ → ⟨x.name, dm.dims, dm.mag⟩ ∈ defs.constants := by
    intro x hx dm g
    unfold getConstants at hconsts
    have hmem : (x.name, (⟨.ofConstant x, dm⟩ : ResolvedItem E M)) ∈ res'.filter (fun q => decide (q.2.item.kind = .constant)) := by
      rw [List.mem_filter]
      exact ⟨(BMap.mem_iff_get sorted).2 g, by simp⟩
    obtain ⟨U, hU, hr⟩ := forall₂_mem_left (mapM_option_some hconsts) hmem
    simp [Item.ofConstant] at hr
    rw [hr]; exact hU
  have back : ∀ {k q}, res.get k = some q → res'.get k = some q := by
    intro k q g
    rw [hget] at g
    split at g
    · exact g
    · simp at g
  refine ⟨⟨dt, qt, Ds, Us, Cs, baseDimensions r.dimensions⟩, (accepted_iff h.auto).2 ⟨res, hqt, hdt, ⟨fun d hd => ?_, ?_⟩, ?_, rfl, h.refs, nodup,
    fun i hi j hj hji => ?_, fun x hx => ?_, hS, ?_, hd, hun, hc, ?_⟩, fun D hD => ?_, fun U hU => ?_, fun C hC => ?_⟩
  · -- base units have base dimensions
    simp only [baseOf, List.mem_filterMap] at hd
    obtain ⟨x, hx, hxd⟩ := hd
    have ha : x.autogeneratedFrom.isSome = false := by
      cases hh : x.autogeneratedFrom.isSome <;> simp_all
    have hdef : x.definition = .base d := by
      rw [ha] at hxd
      cases hdef : x.definition with
      | base b => rw [hdef] at hxd; simp at hxd; rw [hxd]
      | expression e => rw [hdef] at hxd; simp at hxd
    have hxn : x.name ∈ r.names := mem_names.2 ⟨.ofUnit x, mem_allItems.2 (.inr (.inl ⟨x, hx, rfl⟩)), rfl⟩
    have hbase : d ∈ (u.dimensions.filter DimensionEntry.isBase).map DimensionEntry.name := by
      by_contra hno
      refine h.names (.baseUnitForNonBase d x.name) ((o2 _ (.inr rfl)).2 (checkBaseUnits_nonbase (h.units.subset hx) ha hdef hno)) x.name
        (by simp [Diag.blames]) hxn
    obtain ⟨e, he, hed⟩ := List.mem_map.1 hbase
    rw [List.mem_filter] at he
    -- `d` is defined in `r`, and `e` is its only surviving definition
    have hdn : d ∈ r.names := h.refs (.ofUnit x) (mem_allItems.2 (.inr (.inl ⟨x, hx, rfl⟩))) d (by
      rw [ofUnit_refs]; unfold UnitEntry.mentions; rw [hdef]; simp)
    obtain ⟨j, hj, hjd⟩ := mem_names.1 hdn
    have hel : Item.ofDimension e ∈ filterAutogenerated (filterUndefined (allItems u)).1 := by
      have hbr : e.rhs = .base () := by
        have := he.2
        unfold DimensionEntry.isBase at this
        cases hr : e.rhs with
        | base b => rfl
        | expression _ => rw [hr] at this; simp at this
      have hrefs : (Item.ofDimension (E := E) (M := M) e).refs = [] := by
        rw [ofDimension_refs]; unfold DimensionEntry.mentions; rw [hbr]
      refine List.mem_filter.2 ⟨List.mem_filter.2 ⟨mem_allItems.2 (.inl ⟨e, he.1, rfl⟩), ?_⟩, rfl⟩
      simp [firstUndefined, hrefs]
    have hje : j = .ofDimension e := by
      have hc2 := once2 d hdn
      obtain ⟨l1, l2, hl⟩ := List.append_of_mem (sub2.subset hj)
      rw [hl] at hel hc2
      by_contra hne
      rw [List.map_append, List.map_cons, List.count_append, List.count_cons] at hc2
      have hj' : Item.ofDimension e ∈ l1 ∨ Item.ofDimension e ∈ l2 := by
        rcases List.mem_append.1 hel with h | h
        · exact .inl h
        · rcases List.mem_cons.1 h with h | h
          · exact absurd h.symm hne
          · exact .inr h
      have : 0 < (l1.map Item.ident).count d ∨ 0 < (l2.map Item.ident).count d :=
        hj'.imp (fun h => List.count_pos_iff.2 (List.mem_map.2 ⟨.ofDimension e, h, hed⟩)) fun h => List.count_pos_iff.2 (List.mem_map.2 ⟨.ofDimension e, h, hed⟩)
      simp [hjd] at hc2
      omega
    subst hje
    rcases mem_allItems.1 hj with ⟨e', he', h1⟩ | ⟨e', he', h1⟩ | ⟨e', he', h1⟩
    · have : e = e' := by
        have := congrArg Item.type h1
        simpa [Item.ofDimension] using this
      exact ⟨e, this ▸ he', he.2, hed⟩
    · have := congrArg Item.type h1
      simp [Item.ofDimension, Item.ofUnit] at this
    · have := congrArg Item.type h1
      simp [Item.ofDimension, Item.ofConstant] at this
  · -- at most one for each
    rw [List.nodup_iff_count_le_one]
    intro d
    have hB : ∀ q ∈ checkBaseUnits ((u.dimensions.filter DimensionEntry.isBase).map DimensionEntry.name) (fun _ => 0) u.units, ∀ x ∈ q.blames,
        decide (x ∉ r.names) = true := fun q hq x hx =>
      decide_eq_true (h.names q ((o2 q (tag_checkBaseUnits hq)).2 hq) x hx)
    have key := checkBaseUnits_once (B := fun x => decide (x ∉ r.names)) hB d
    simp only [if_true] at key
    have hsub : r.units.Subperm (u.units.filter fun x => !decide (x.name ∉ r.names)) :=
      List.Subperm.filter_of_all h.units _ fun x hx => by
        have : x.name ∈ r.names := mem_names.2 ⟨.ofUnit x, mem_allItems.2 (.inr (.inl ⟨x, hx, rfl⟩)), rfl⟩
        simp [this]
    exact le_trans ((List.Subperm.filterMap' _ hsub).count_le d) key
  · -- symbols
    rw [List.nodup_iff_count_le_one]
    intro s
    by_contra hcount
    have h1 : 1 < (u.units.filterMap UnitEntry.symbol).count s :=
      lt_of_lt_of_le (not_le.1 hcount) ((List.Subperm.filterMap' UnitEntry.symbol h.units).count_le s)
    obtain ⟨x, hx, hxs⟩ := List.mem_filterMap.1 (List.count_pos_iff.1 (show 0 < (r.units.filterMap UnitEntry.symbol).count s by omega))
    refine h.names _ ((o4 _ rfl).2 (symbolMultiple_mem h1)) x.name ?_ (mem_names.2 ⟨.ofUnit x, mem_allItems.2 (.inr (.inl ⟨x, hx, rfl⟩)), rfl⟩)
    exact List.mem_map_of_mem (f := UnitEntry.name) (List.mem_filter.2 ⟨h.units.subset hx, by simpa using hxs⟩)
  · -- kinds
    by_contra hk
    have hjn : j.ident ∈ r.names := mem_names.2 ⟨j, hj, rfl⟩
    have hkind := kindOf_of_once (sub3.subset hj) (le_trans (le3 _) (once2 _ hjn))
    refine h.names (.kindNotAllowed i.ident j.ident i.kind j.kind) ((o7 _ rfl).2 ?_) i.ident (by simp [Diag.blames]) (mem_names.2 ⟨i, hi, rfl⟩)
    unfold checkKinds
    refine List.mem_flatMap.2 ⟨i, sub3.subset hi, List.mem_filterMap.2 ⟨j.ident, hji, ?_⟩⟩
    simp only [hkind]
    rw [if_neg hk]
  · -- no recursion
    obtain ⟨i, hi, rfl⟩ := mem_names.1 hx
    obtain ⟨d, g, _⟩ := resolved i hi
    exact grounded _ (groundedBig _ (List.mem_map.2 ⟨_, (BMap.mem_iff_get sorted).2 g, rfl⟩)) hx
  · -- annotations
    rw [checkAnnotations_nil]
    intro p hp a ha
    have hp' : p ∈ res' := List.mem_of_mem_filter hp
    obtain ⟨hm, hid⟩ := hS.only _ _ ((BMap.mem_iff_get hS.sorted).1 (show (p.1, p.2) ∈ res from hp))
    have han := h.annotated _ hm a ha
    obtain ⟨j, hj, rfl⟩ := mem_names.1 han
    obtain ⟨dm, g, _⟩ := resolved j hj
    have hkind : j.kind = .dimension := by
      by_contra hk
      exact h.annotations j.ident j.kind ((o9 _ (.inl rfl)).2 (mem_checkAnnotations.2 ⟨p.1, p.2, _, hp', ha, .inl ⟨_, g, hk, rfl⟩⟩)) _ hm ha
    refine ⟨_, by rw [hget, if_pos han, g], hkind, ?_⟩
    by_contra heq
    refine h.names (.violatedAnnotation p.2.item.ident j.ident) ((o9 _ (.inr (.inl rfl))).2 (mem_checkAnnotations.2 ⟨p.1, p.2, _, hp', ha,
      .inr (.inl ⟨_, g, hkind, by simpa using heq, rfl⟩)⟩)) p.2.item.ident (by simp [Diag.blames]) (mem_names.2 ⟨_, hm, rfl⟩)
  · -- symbols of base units
    rw [checkBaseSymbols_nil]
    intro U hU hb
    obtain ⟨x, hx, dm, g, rfl⟩ := ((units_of_solution hS hun).1 U).1 hU
    by_contra hs
    have hs' : (x.toDef dm).symbol = none := by simpa using hs
    refine h.names (.noSymbolForBaseUnit x.name) ((o12 _ rfl).2 ?_) x.name (by simp [Diag.blames])
      (mem_names.2 ⟨.ofUnit x, mem_allItems.2 (.inr (.inl ⟨x, hx, rfl⟩)), rfl⟩)
    refine List.mem_filterMap.2 ⟨x.toDef dm, oldUnit x hx dm (back g), ?_⟩
    rw [if_pos (by simp [hb, hs'])]
    rfl
  · obtain ⟨d, hd', dm, g, rfl⟩ := ((dims_of_solution hS hd).1 D).1 hD
    exact oldDimension d hd' dm (back g)
  · obtain ⟨x, hx, dm, g, rfl⟩ := ((units_of_solution hS hun).1 U).1 hU
    exact oldUnit x hx dm (back g)
  · obtain ⟨c, hc', dm, g, rfl⟩ := ((constants_of_solution hS hc).1 C).1 hC
    exact oldConstant c hc' dm (back g)

end

section
variable {E M : Type} [Exponent E] [LawfulExponent E] [MagOps E M]

theorem written_names {one : M} {factor : Prefix → M} (t : UnresolvedTemplates E M) (x : Str) :
    x ∈ (UnresolvedTemplates.expand one factor t).names ↔ x ∈ t.written.map Prod.fst := by
  rw [← allItems_ident, ← itemDefs_names, itemDefs_allItems]
  exact ((written_perm (one := one) (factor := factor) t).map Prod.fst).mem_iff

/-- **C81.** Whatever the macro does not complain about is in order: if some of the statements, with everything they mention, are not the subject of any report,
then these statements alone are accepted, and they mean what they meant: the macro generates the dimensions, units and constants for them that it generated for the
whole. -/
theorem C81_remaining (factor : Prefix → M) (t r : UnresolvedTemplates E M) (defs : Defs E M) (ds : List Diag)
    (run : runUnitSystem factor t = some (defs, ds)) (innocent : Innocent t r ds) :
    ∃ defs', runUnitSystem factor r = some (defs', []) ∧ (∀ D ∈ defs'.dimensions, D ∈ defs.dimensions) ∧ (∀ U ∈ defs'.units, U ∈ defs.units) ∧
      (∀ C ∈ defs'.constants, C ∈ defs.constants) := by
  have names := written_names (one := MagOps.one E) (factor := factor) r
  refine Part.accepted run (r := UnresolvedTemplates.expand (MagOps.one E) factor r)
    ⟨innocent.dimensions, List.Subperm.flatMap' _ innocent.units, innocent.constants, fun i hi x hx => ?_, fun i hi a ha => ?_, fun d hd x hx => ?_,
      fun a k hk i hi ha => ?_, expand_autoOk _ _ r⟩ innocent.quantityType innocent.dimensionType
  · rw [names]
    exact innocent.closed i.ident i.refs ((written_perm r).mem_iff.1 (item_definition hi)) x hx
  · rw [names]
    exact innocent.annotated i.ident a ((claims_iff r _ _).1 (annotated_item.2 ⟨i, hi, rfl, ha⟩))
  · rw [names]
    exact innocent.names d hd x hx
  · exact innocent.annotations a k hk i.ident ((claims_iff r _ _).1 (annotated_item.2 ⟨i, hi, rfl, ha⟩))

/-- **C81, the other way round.** Some of the statements, with everything they mention, are in themselves faulty (alone, they are not accepted). Then some report about
the whole is about them: it names one of their definitions, or one of their annotations. -/
theorem C81_named (factor : Prefix → M) (t r : UnresolvedTemplates E M) (defs : Defs E M) (ds : List Diag) (run : runUnitSystem factor t = some (defs, ds))
    (dimensions : r.dimensions.Subperm t.dimensions) (units : r.units.Subperm t.units) (constants : r.constants.Subperm t.constants)
    (types : r.quantityTypes.length = 1 ∧ r.dimensionTypes.length = 1)
    (closed : ∀ x mentions, (x, mentions) ∈ r.written → ∀ y ∈ mentions, y ∈ r.written.map Prod.fst)
    (annotated : ∀ x a, r.Claims x a → a ∈ r.written.map Prod.fst)
    (faulty : ∀ defs', runUnitSystem factor r ≠ some (defs', [])) :
    (∃ d ∈ ds, ∃ x ∈ d.blames, x ∈ r.written.map Prod.fst) ∨ ∃ a kind x, .wrongTypeInAnnotation a kind ∈ ds ∧ r.Claims x a := by
  by_contra hc
  push Not at hc
  obtain ⟨defs', h, -⟩ := C81_remaining factor t r defs ds run
    ⟨dimensions, units, constants, types.1, types.2, closed, annotated, hc.1, fun a k h x => hc.2 a k x h⟩
  exact faulty defs' h

/-- **C81, what remains is well formed.** In terms of the statements (`Unresolved.WellFormed`, C80), if exponents are in normal form (integers always are). -/
theorem C81_wellFormed (factor : Prefix → M) (t r : UnresolvedTemplates E M) (defs : Defs E M) (ds : List Diag)
    (run : runUnitSystem factor t = some (defs, ds)) (innocent : Innocent t r ds) (canonical : r.CanonicalExponents) : r.WellFormed := by
  obtain ⟨defs', h, -⟩ := C81_remaining factor t r defs ds run innocent
  exact (C80_accepted_iff factor r defs' [] h canonical).1 rfl

end

/-! ### The hypotheses are met -/
section
attribute [local instance] Sample.exactMag
open Sample

/-- What is in order in `cyclic`: the dimension and the meters. The units `a`, `b`, `c` and `e` are reported, `d` mentions an undefined name. -/
def blameless : UnresolvedTemplates Int ℚ where
  quantityTypes := [str!"Q"]
  dimensionTypes := [str!"D"]
  dimensions := [⟨str!"Length", .base ()⟩]
  units := [baseUnit (str!"meters") (str!"m") (str!"Length") [.kilo]]
  constants := []

theorem blameless_innocent : Innocent cyclic blameless [.undefined [str!"nowhere"], .unresolvable [str!"a", str!"b", str!"c", str!"e"]] where
  dimensions := List.Subperm.refl _
  units := List.Sublist.subperm (List.Sublist.cons_cons _ (List.nil_sublist _))
  constants := List.Subperm.refl _
  quantityType := rfl
  dimensionType := rfl
  closed := by
    have : ∀ p ∈ blameless.written, ∀ y ∈ p.2, y ∈ blameless.written.map Prod.fst := by decide +kernel
    exact fun x ms h y hy => this (x, ms) h y hy
  annotated := by
    rintro x a (⟨v, hv, _, h⟩ | ⟨c, hc, _⟩)
    · simp only [blameless, List.mem_singleton] at hv
      subst hv
      simp only [baseUnit, Option.some.injEq] at h
      subst h
      decide +kernel
    · simp [blameless] at hc
  names := by decide +kernel
  annotations := by simp

example : ∃ defs', runUnitSystem exactFactor blameless = some (defs', []) := by
  obtain ⟨defs, h⟩ := cyclic_run
  obtain ⟨defs', h', -⟩ := C81_remaining exactFactor cyclic blameless defs _ h blameless_innocent
  exact ⟨defs', h'⟩

end
end Diman
