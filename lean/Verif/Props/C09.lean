import Verif.Proofs.Diags
import Verif.Examples.Sample
/-!
# C09 Exactly the recursive definitions are rejected as unresolvable, and resolution always ends
Termination is part of the model: `resolveLoop` is a total function (each iteration of the `while` loop removes one definition).
-/
set_option linter.unusedSectionVars false
namespace Diman

/-- The identifiers on the right-hand side of a unit statement (for a base unit: its dimension). -/
def UnitTemplate.mentions {E M : Type} (u : UnitTemplate E M) : List Str :=
  match u.definition with
  | .base d => [d]
  | .expression e => e.idents

/-- The statement that introduces the name `x` (a unit statement also introduces its prefixed and aliased variants) mentions the
identifiers `rs` on its right-hand side. -/
def Unresolved.Introduces {E M : Type} (t : UnresolvedTemplates E M) (x : Str) (rs : List Str) : Prop :=
  (∃ d ∈ t.dimensions, d.name = x ∧ d.mentions = rs) ∨
  (∃ v ∈ t.units, (∃ pre al, (pre = none ∨ ∃ p ∈ v.prefixes, pre = some p) ∧ (al = none ∨ ∃ a ∈ v.aliases, al = some a) ∧
      x = (pre.map Prefix.name).getD [] ++ al.getD v.name) ∧ v.mentions = rs) ∨
  (∃ c ∈ t.constants, c.name = x ∧ c.mentions = rs)

/-- All names in the generated definitions. -/
def Defs.names {E M : Type} (D : Defs E M) : List Str :=
  D.dimensions.map DimensionDef.name ++ D.units.map UnitDef.name ++ D.constants.map ConstantDef.name

section
variable {E M : Type} [Exponent E] [MagOps E M]

/-! ### No panic other than exponent overflow -/

theorem mem_survivors {l : List (Item E M)} {i : Item E M} (h : i ∈ survivors l) : i ∈ l := by
  unfold survivors filterAutogenerated filterUndefined at h
  simp only [List.mem_filter] at h
  exact h.1.1.1.1

theorem resolveDefs_isSome {u : UnresolvedDefs E M} (h : (resolveLoop (survivors (allItems u)) []).isSome) :
    (resolveDefs u).isSome := by
  obtain ⟨⟨res, d4⟩, h⟩ := Option.isSome_iff_exists.1 h
  obtain ⟨ds, h1⟩ := Option.isSome_iff_exists.1 (getDimensions_isSome res)
  obtain ⟨us, h2⟩ := Option.isSome_iff_exists.1 (getUnits_isSome res)
  obtain ⟨cs, h3⟩ := Option.isSome_iff_exists.1 (getConstants_isSome res)
  unfold resolveDefs resolveItems
  unfold survivors at h
  simp [h, h1, h2, h3]

/-- The expressions a unit system evaluates, with literals read as dimensionless values: right-hand sides of dimensions, units
and constants. -/
def Unresolved.rhs (u : UnresolvedDefs E M) (e : Expr (Atom (DM E M)) E) : Prop :=
  (∃ d ∈ u.dimensions, ∃ e0, d.rhs = .expression e0 ∧ e = e0.map (Atom.mapConcrete fun _ => DM.dimensions [])) ∨
  (∃ x ∈ u.units, ∃ e0, x.definition = .expression e0 ∧ e = e0.map (Atom.mapConcrete DM.magnitude)) ∨
  (∃ c ∈ u.constants, e = c.rhs.map (Atom.mapConcrete DM.magnitude))

/-- **C09, no internal panic.** If the macro panics on a unit system, then the exponent arithmetic overflowed: there is a
definition whose right-hand side, with some values for the identifiers in it, has no value (`Expr.eval` looks nothing up, it
only computes). In particular no lookup or unwrap of the resolver ever fails. -/
theorem C09_only_overflow_panics (factor : Prefix → M) (t : UnresolvedTemplates E M) (panic : runUnitSystem factor t = none) :
    ∃ e, (UnresolvedTemplates.expand (MagOps.one E) factor t).rhs e ∧
      ∃ value : Str → DM E M, (e.map fun | .concrete c => c | .other x => value x).eval = none := by
  by_contra hne
  have hs : (resolveLoop (survivors (allItems (UnresolvedTemplates.expand (MagOps.one E) factor t))) []).isSome := by
    apply resolveLoop_isSome
    intro done x rest res1 hr hx hres
    have hx' : x ∈ survivors (allItems (UnresolvedTemplates.expand (MagOps.one E) factor t)) := (run_perm hr).2.subset hx
    have hmem := mem_survivors hx'
    rw [isResolvable_iff] at hres
    let value : Str → DM E M := fun y => match res1.get y with
      | some r => r.dimensions
      | none => DM.dimensions []
    have hmap : x.expr.mapM (leafOf res1) = some (x.expr.map fun | .concrete c => c | .other x => value x) := by
      apply Expr.mapM_of_forall
      intro v hv
      cases v with
      | concrete c => rfl
      | other y =>
        have hy := hres y (mem_refs.2 hv)
        rw [← BMap.contains_iff] at hy
        unfold BMap.contains at hy
        obtain ⟨r, hr⟩ := Option.isSome_iff_exists.1 hy
        simp only [leafOf, hr, value]; rfl
    rw [resolveDimensions_def, hmap, Option.bind_some]
    cases hev : (x.expr.map fun | .concrete c => c | .other x => value x).eval with
    | some d => rfl
    | none =>
      exfalso
      rcases mem_allItems.1 hmem with ⟨d, hd, rfl⟩ | ⟨w, hw, rfl⟩ | ⟨c, hc, rfl⟩
      · cases hd' : d.rhs with
        | base b =>
          have : (Item.ofDimension (M := M) d).expr = .value (.value (.concrete (DM.dimensions [(toSnakecase d.name, Exponent.one)]))) := by
            simp [Item.ofDimension, hd']
          rw [this] at hev; simp [Expr.map, Factor.map, Expr.eval, Factor.eval] at hev
        | expression e0 =>
          have : (Item.ofDimension (M := M) d).expr = e0.map (Atom.mapConcrete fun _ => DM.dimensions []) := by
            simp [Item.ofDimension, hd']
          exact hne ⟨_, .inl ⟨d, hd, e0, hd', this⟩, value, hev⟩
      · cases hd' : w.definition with
        | base b =>
          have : (Item.ofUnit w).expr = .value (.value (.other b)) := by simp [Item.ofUnit, hd']
          rw [this] at hev; simp [Expr.map, Factor.map, Expr.eval, Factor.eval] at hev
        | expression e0 =>
          have : (Item.ofUnit w).expr = e0.map (Atom.mapConcrete DM.magnitude) := by simp [Item.ofUnit, hd']
          exact hne ⟨_, .inr (.inl ⟨w, hw, e0, hd', this⟩), value, hev⟩
      · exact hne ⟨_, .inr (.inr ⟨c, hc, rfl⟩), value, hev⟩
  have := resolveDefs_isSome hs
  unfold runUnitSystem at panic
  rw [panic] at this
  simp at this

/-! ### What is left unresolved -/

theorem filterUndefined_mem {l : List (Item E M)} {i : Item E M} :
    i ∈ (filterUndefined l).1 ↔ i ∈ l ∧ ∀ x ∈ i.refs, x ∈ l.map Item.ident := by
  unfold filterUndefined
  simp only [List.mem_filter, Option.isNone_iff_eq_none, firstUndefined_none, unresolvedIdents]

theorem filterAutogenerated_mem {l : List (Item E M)} {i : Item E M} :
    i ∈ filterAutogenerated l ↔ i ∈ l ∧ ∀ o, i.autogeneratedFrom = some o → o ∈ l.map Item.ident := by
  unfold filterAutogenerated
  rw [List.mem_filter]
  refine and_congr_right fun _ => ?_
  cases i.autogeneratedFrom with
  | none => simp
  | some o => simp [unresolvedIdents]

/-- In the expansion of a template list with distinct names, a variant's origin is a non-variant entry. -/
theorem expand_origin {one : M} {factor : Prefix → M} {t : UnresolvedTemplates E M} {x : UnitEntry E M}
    (hx : x ∈ (UnresolvedTemplates.expand one factor t).units) {o : Str} (ho : x.autogeneratedFrom = some o) :
    ∃ v ∈ t.units, v.name = o ∧ x ∈ v.expand one factor ∧
      (⟨v.name, v.symbol, v.annotation, v.definition, none⟩ : UnitEntry E M) ∈ (UnresolvedTemplates.expand one factor t).units := by
  simp only [UnresolvedTemplates.expand, List.mem_flatMap] at hx
  obtain ⟨v, hv, hx⟩ := hx
  refine ⟨v, hv, ?_, hx, ?_⟩
  · obtain ⟨pre, al, _, _, rfl⟩ := UnitTemplate.mem_expand.1 hx
    rw [UnitTemplate.expandOne_auto] at ho
    split at ho
    · injection ho
    · simp at ho
  · simp only [UnresolvedTemplates.expand, List.mem_flatMap]
    exact ⟨v, hv, v.self_mem_expand⟩

theorem mem_units_of_item {u : UnresolvedDefs E M} {i : Item E M} (hi : i ∈ allItems u) {o : Str} (ho : i.autogeneratedFrom = some o) :
    ∃ x ∈ u.units, i = .ofUnit x ∧ x.autogeneratedFrom = some o := by
  rcases mem_allItems.1 hi with ⟨d, hd, rfl⟩ | ⟨w, hw, rfl⟩ | ⟨c, hc, rfl⟩
  · simp [Item.autogeneratedFrom, Item.ofDimension] at ho
  · exact ⟨w, hw, rfl, ho⟩
  · simp [Item.autogeneratedFrom, Item.ofConstant] at ho

theorem item_unique {l : List (Item E M)} (hn : (l.map Item.ident).Nodup) {i j : Item E M} (hi : i ∈ l) (hj : j ∈ l)
    (h : i.ident = j.ident) : i = j := List.inj_on_of_nodup_map hn hi hj h

section
variable {factor : Prefix → M} {t : UnresolvedTemplates E M}

/-- An autogenerated item mentions exactly its origin. -/
theorem auto_refs {one : M} {i : Item E M} (hi : i ∈ allItems (UnresolvedTemplates.expand one factor t)) {o : Str}
    (ho : i.autogeneratedFrom = some o) : i.refs = [o] := by
  obtain ⟨x, hx, rfl, hxo⟩ := mem_units_of_item hi ho
  obtain ⟨f, hf⟩ := expand_auto hx hxo
  rw [ofUnit_refs, UnitEntry.mentions, hf]
  simp [Expr.idents, Factor.idents]

/-- The origin of an autogenerated item is an item that is not autogenerated. -/
theorem auto_origin {one : M} {i : Item E M} (hi : i ∈ allItems (UnresolvedTemplates.expand one factor t)) {o : Str}
    (ho : i.autogeneratedFrom = some o) :
    ∃ j ∈ allItems (UnresolvedTemplates.expand one factor t), j.ident = o ∧ j.autogeneratedFrom = none := by
  obtain ⟨x, hx, rfl, hxo⟩ := mem_units_of_item hi ho
  obtain ⟨v, _, hvo, _, hm⟩ := expand_origin hx hxo
  exact ⟨_, mem_allItems.2 (.inr (.inl ⟨_, hm, rfl⟩)), hvo, rfl⟩

/-- What survives the filters when names are distinct. -/
theorem mem_survivors_iff {one : M} (hn : (UnresolvedTemplates.expand one factor t).names.Nodup) {i : Item E M} :
    let l := allItems (UnresolvedTemplates.expand one factor t)
    i ∈ survivors l ↔ i ∈ l ∧ (∀ x ∈ i.refs, x ∈ l.map Item.ident) ∧
      ∀ o, i.autogeneratedFrom = some o → ∀ j ∈ l, j.ident = o → ∀ x ∈ j.refs, x ∈ l.map Item.ident := by
  intro l
  rw [← allItems_ident] at hn
  have hl1 : ∀ i, i ∈ (filterUndefined l).1 ↔ i ∈ l ∧ ∀ x ∈ i.refs, x ∈ l.map Item.ident := fun i => filterUndefined_mem
  have hl2 : ∀ i, i ∈ filterAutogenerated (filterUndefined l).1 ↔ i ∈ l ∧ (∀ x ∈ i.refs, x ∈ l.map Item.ident) ∧
      ∀ o, i.autogeneratedFrom = some o → ∀ j ∈ l, j.ident = o → ∀ x ∈ j.refs, x ∈ l.map Item.ident := by
    intro i
    rw [filterAutogenerated_mem, hl1, and_assoc]
    refine and_congr_right fun hi => and_congr_right fun hr => forall_congr' fun o => imp_congr_right fun ho => ?_
    constructor
    · intro h j hj hjo
      obtain ⟨j', hj', hjo'⟩ := List.mem_map.1 h
      rw [hl1] at hj'
      have := item_unique hn hj hj'.1 (hjo.trans hjo'.symm)
      subst this
      exact hj'.2
    · intro h
      obtain ⟨j, hj, hjo, _⟩ := auto_origin hi ho
      exact List.mem_map.2 ⟨j, (hl1 j).2 ⟨hj, h j hj hjo⟩, hjo⟩
  have hauto : AutoOk (filterAutogenerated (filterUndefined l).1) := by
    intro i hi o ho
    rw [hl2] at hi
    obtain ⟨j, hj, hjo, hja⟩ := auto_origin hi.1 ho
    refine List.mem_map.2 ⟨j, (hl2 j).2 ⟨hj, hi.2.2 o ho j hj hjo, ?_⟩, hjo⟩
    intro o' ho'
    rw [hja] at ho'; simp at ho'
  unfold survivors
  rw [filterAutogenerated_eq hauto, filterAutogenerated_eq hauto]
  exact hl2 i

theorem survivors_nodup {l : List (Item E M)} (hn : (l.map Item.ident).Nodup) : ((survivors l).map Item.ident).Nodup := by
  refine hn.sublist (List.Sublist.map _ ?_)
  unfold survivors filterAutogenerated filterUndefined
  exact ((List.filter_sublist.trans List.filter_sublist).trans List.filter_sublist).trans List.filter_sublist

theorem grounded_survivors {one : M} (hn : (UnresolvedTemplates.expand one factor t).names.Nodup) (x : Str) :
    Grounded (itemDefs (survivors (allItems (UnresolvedTemplates.expand one factor t)))) x ↔
      Grounded (UnresolvedTemplates.expand one factor t).definitions x := by
  constructor
  · intro h
    rw [← itemDefs_allItems]
    refine grounded_mono (fun p hp => ?_) h
    obtain ⟨x, rs⟩ := p
    obtain ⟨i, hi, h1, h2⟩ := mem_itemDefs.1 hp
    exact mem_itemDefs.2 ⟨i, mem_survivors hi, h1, h2⟩
  · intro h
    rw [← itemDefs_allItems] at h
    induction h with
    | intro x rs hx hrs ih =>
      obtain ⟨i, hi, rfl, rfl⟩ := mem_itemDefs.1 hx
      refine .intro _ i.refs (mem_itemDefs.2 ⟨i, (mem_survivors_iff hn).2 ⟨hi, ?_, ?_⟩, rfl, rfl⟩) ih
      · intro y hy
        have := (hrs y hy).defined
        rwa [itemDefs_names] at this
      · intro o ho j hj hjo y hy
        have hor : Grounded (itemDefs (allItems (UnresolvedTemplates.expand one factor t))) o :=
          hrs o (by rw [auto_refs hi ho]; simp)
        have := grounded_mentions (D := itemDefs _) (by rw [itemDefs_names, allItems_ident]; exact hn) hor
          ⟨j.refs, mem_itemDefs.2 ⟨j, hj, hjo, rfl⟩, hy⟩
        have := this.defined
        rwa [itemDefs_names] at this

theorem names_eq_definitions (u : UnresolvedDefs E M) : u.definitions.map Prod.fst = u.names := by
  rw [← itemDefs_allItems, itemDefs_names, allItems_ident]

theorem formatName_eq (v : UnitTemplate E M) (pre al) :
    v.formatName pre al = (pre.map Prefix.name).getD [] ++ al.getD v.name := by
  unfold UnitTemplate.formatName
  cases pre <;> cases al <;> rfl

/-- Survivors, in terms of the statements. -/
theorem survivors_introduces {one : M} (hn : (UnresolvedTemplates.expand one factor t).names.Nodup) (x : Str) :
    x ∈ (survivors (allItems (UnresolvedTemplates.expand one factor t))).map Item.ident ↔
      ∃ rs, t.Introduces x rs ∧ ∀ y ∈ rs, y ∈ (UnresolvedTemplates.expand one factor t).names := by
  rw [List.mem_map]
  have hid := allItems_ident (UnresolvedTemplates.expand one factor t)
  have hn' := hn
  rw [← hid] at hn'
  constructor
  · rintro ⟨i, hi, rfl⟩
    obtain ⟨hi, hr, ho⟩ := (mem_survivors_iff hn).1 hi
    rw [hid] at hr ho
    rcases mem_allItems.1 hi with ⟨d, hd, rfl⟩ | ⟨w, hw, rfl⟩ | ⟨c, hc, rfl⟩
    · exact ⟨d.mentions, .inl ⟨d, hd, rfl, rfl⟩, by rwa [ofDimension_refs] at hr⟩
    · simp only [UnresolvedTemplates.expand, List.mem_flatMap] at hw
      obtain ⟨v, hv, hw⟩ := hw
      have hself : (⟨v.name, v.symbol, v.annotation, v.definition, none⟩ : UnitEntry E M) ∈
          (UnresolvedTemplates.expand one factor t).units := by
        simp only [UnresolvedTemplates.expand, List.mem_flatMap]
        exact ⟨v, hv, v.self_mem_expand⟩
      obtain ⟨pre, al, h1, h2, rfl⟩ := UnitTemplate.mem_expand.1 hw
      refine ⟨v.mentions, .inr (.inl ⟨v, hv, ⟨pre, al, h1, h2, formatName_eq v pre al⟩, rfl⟩), ?_⟩
      by_cases hv' : pre.isSome || al.isSome
      · have := ho v.name (by simp [Item.autogeneratedFrom, Item.ofUnit, UnitTemplate.expandOne_auto, hv'])
          (.ofUnit ⟨v.name, v.symbol, v.annotation, v.definition, none⟩) (mem_allItems.2 (.inr (.inl ⟨_, hself, rfl⟩))) rfl
        rwa [ofUnit_refs] at this
      · have hpre : pre = none := by cases pre <;> simp_all
        have hal : al = none := by cases al <;> simp_all
        subst hpre; subst hal
        rwa [ofUnit_refs] at hr
    · exact ⟨c.mentions, .inr (.inr ⟨c, hc, rfl, rfl⟩), by rwa [ofConstant_refs] at hr⟩
  · rintro ⟨rs, ⟨d, hd, rfl, rfl⟩ | ⟨v, hv, ⟨pre, al, h1, h2, rfl⟩, rfl⟩ | ⟨c, hc, rfl, rfl⟩, hrs⟩
    · refine ⟨.ofDimension d, (mem_survivors_iff hn).2 ⟨mem_allItems.2 (.inl ⟨d, hd, rfl⟩), ?_, ?_⟩, rfl⟩
      · rwa [hid, ofDimension_refs]
      · intro o ho; simp [Item.autogeneratedFrom, Item.ofDimension] at ho
    · have hself : (⟨v.name, v.symbol, v.annotation, v.definition, none⟩ : UnitEntry E M) ∈
          (UnresolvedTemplates.expand one factor t).units := by
        simp only [UnresolvedTemplates.expand, List.mem_flatMap]
        exact ⟨v, hv, v.self_mem_expand⟩
      have hm : v.expandOne one factor pre al ∈ (UnresolvedTemplates.expand one factor t).units := by
        simp only [UnresolvedTemplates.expand, List.mem_flatMap]
        exact ⟨v, hv, UnitTemplate.mem_expand.2 ⟨pre, al, h1, h2, rfl⟩⟩
      have hmi : Item.ofUnit (v.expandOne one factor pre al) ∈ allItems (UnresolvedTemplates.expand one factor t) :=
        mem_allItems.2 (.inr (.inl ⟨_, hm, rfl⟩))
      have hsi : Item.ofUnit (⟨v.name, v.symbol, v.annotation, v.definition, none⟩ : UnitEntry E M) ∈
          allItems (UnresolvedTemplates.expand one factor t) := mem_allItems.2 (.inr (.inl ⟨_, hself, rfl⟩))
      refine ⟨.ofUnit (v.expandOne one factor pre al), (mem_survivors_iff hn).2 ⟨hmi, ?_, ?_⟩, formatName_eq v pre al⟩
      · by_cases hv' : pre.isSome || al.isSome
        · rw [auto_refs hmi (o := v.name) (by simp [Item.autogeneratedFrom, Item.ofUnit, UnitTemplate.expandOne_auto, hv'])]
          simp only [List.mem_singleton, forall_eq]
          exact List.mem_map.2 ⟨_, hsi, rfl⟩
        · have hpre : pre = none := by cases pre <;> simp_all
          have hal : al = none := by cases al <;> simp_all
          subst hpre; subst hal
          rw [hid, ofUnit_refs]; exact hrs
      · intro o ho j hj hjo
        have hov : o = v.name := by
          simp only [Item.autogeneratedFrom, Item.ofUnit, UnitTemplate.expandOne_auto] at ho
          split at ho
          · injection ho with ho; exact ho.symm
          · simp at ho
        have := item_unique hn' hj hsi (by rw [hjo, hov]; rfl)
        subst this
        rw [hid, ofUnit_refs]; exact hrs
    · refine ⟨.ofConstant c, (mem_survivors_iff hn).2 ⟨mem_allItems.2 (.inr (.inr ⟨c, hc, rfl⟩)), ?_, ?_⟩, rfl⟩
      · rwa [hid, ofConstant_refs]
      · intro o ho; simp [Item.autogeneratedFrom, Item.ofConstant] at ho

/-- The names of the generated definitions are the keys of the resolved map. -/
theorem generated_names {res : BMap (ResolvedItem E M)} {defs : Defs E M} (hk : ∀ kv ∈ res, kv.2.item.ident = kv.1)
    (h1 : getDimensions res = some defs.dimensions) (h2 : getUnits res = some defs.units)
    (h3 : getConstants res = some defs.constants) (x : Str) : x ∈ defs.names ↔ x ∈ res.keys := by
  have k1 : defs.dimensions.map DimensionDef.name = (res.filter fun r => r.2.item.kind = .dimension).map Prod.fst := by
    refine (forall₂_map_eq (mapM_option_some h1) ?_).symm
    intro a ha b hab
    have := hk a (List.mem_filter.1 ha).1
    unfold Item.ident at this
    split at hab
    · rename_i d hd; rw [hd] at this; injection hab with hab; rw [← hab, ← this]
    · simp at hab
  have k2 : defs.units.map UnitDef.name =
      (res.filter fun r => r.2.item.kind = .unit || r.2.item.kind = .baseUnit).map Prod.fst := by
    refine (forall₂_map_eq (mapM_option_some h2) ?_).symm
    intro a ha b hab
    have := hk a (List.mem_filter.1 ha).1
    unfold Item.ident at this
    split at hab
    · rename_i d hd; rw [hd] at this; injection hab with hab; rw [← hab, ← this]
    · simp at hab
  have k3 : defs.constants.map ConstantDef.name = (res.filter fun r => r.2.item.kind = .constant).map Prod.fst := by
    refine (forall₂_map_eq (mapM_option_some h3) ?_).symm
    intro a ha b hab
    have := hk a (List.mem_filter.1 ha).1
    unfold Item.ident at this
    split at hab
    · rename_i d hd; rw [hd] at this; injection hab with hab; rw [← hab, ← this]
    · simp at hab
  unfold Defs.names BMap.keys
  rw [k1, k2, k3]
  simp only [List.mem_append, List.mem_map, List.mem_filter]
  constructor
  · rintro ((⟨a, ⟨h, _⟩, rfl⟩ | ⟨a, ⟨h, _⟩, rfl⟩) | ⟨a, ⟨h, _⟩, rfl⟩) <;> exact ⟨a, h, rfl⟩
  · rintro ⟨a, h, rfl⟩
    cases hkd : a.2.item.kind with
    | dimension => exact .inl (.inl ⟨a, ⟨h, by simp [hkd]⟩, rfl⟩)
    | unit => exact .inl (.inr ⟨a, ⟨h, by simp [hkd]⟩, rfl⟩)
    | baseUnit => exact .inl (.inr ⟨a, ⟨h, by simp [hkd]⟩, rfl⟩)
    | constant => exact .inr ⟨a, ⟨h, by simp [hkd]⟩, rfl⟩

/-- What a run leaves resolved and unresolved when names are distinct. -/
theorem run_outcome {defs : Defs E M} {ds : List Diag} (run : runUnitSystem factor t = some (defs, ds))
    (hn : (UnresolvedTemplates.expand (MagOps.one E) factor t).names.Nodup) :
    (∀ x, x ∈ defs.names ↔ Grounded (UnresolvedTemplates.expand (MagOps.one E) factor t).definitions x) ∧
    (∀ x, (∃ xs, Diag.unresolvable xs ∈ ds ∧ x ∈ xs) ↔
      x ∈ (survivors (allItems (UnresolvedTemplates.expand (MagOps.one E) factor t))).map Item.ident ∧
      ¬ Grounded (UnresolvedTemplates.expand (MagOps.one E) factor t).definitions x) := by
  unfold runUnitSystem at run
  obtain ⟨res, d4, hloop, h1, h2, h3, _⟩ := resolveDefs_diags run
  obtain ⟨res', d4', hloop', _, _, _, _, _, hun, _⟩ := diag_origin run
  rw [hloop] at hloop'
  injection hloop' with hloop'
  injection hloop' with e1 e2
  subst e1; subst e2
  obtain ⟨done, l', hr, hend, hds⟩ := resolveLoop_run hloop
  obtain ⟨hk, hl'⟩ := loop_grounded hr hend
  have hn' := hn
  rw [← allItems_ident] at hn'
  have hs := survivors_nodup hn'
  have hsub := (run_perm hr).2
  constructor
  · intro x
    rw [generated_names ?_ h1 h2 h3, hk, grounded_survivors hn]
    intro kv hkv
    have hsort := run_sorted hr (by simp [BMap.Sorted, BMap.keys])
    have := (BMap.mem_iff_get hsort).1 hkv
    rcases run_origin hr this with h | h
    · simp [BMap.get] at h
    · exact h.2
  · intro x
    have hx : (∃ xs, Diag.unresolvable xs ∈ ds ∧ x ∈ xs) ↔ x ∈ l'.map Item.ident := by
      constructor
      · rintro ⟨xs, hxs, hx⟩
        rw [hun _ rfl, hds] at hxs
        split at hxs
        · simp at hxs
        · simp at hxs; rwa [hxs] at hx
      · intro hx
        refine ⟨_, ?_, hx⟩
        rw [hun _ rfl, hds, if_neg]
        · simp
        · intro he; rw [List.isEmpty_iff] at he; subst he; simp at hx
    rw [hx]
    constructor
    · intro h
      obtain ⟨i, hi, rfl⟩ := List.mem_map.1 h
      have hi' := hsub.subset hi
      refine ⟨List.mem_map_of_mem (f := Item.ident) hi', ?_⟩
      obtain ⟨y, hy, hng⟩ := (hl' i hi').1 hi
      rw [← grounded_survivors hn]
      intro hg
      exact hng (mem_idents_of_mem_refs hi' hg hs y hy)
    · rintro ⟨h, hng⟩
      obtain ⟨i, hi, rfl⟩ := List.mem_map.1 h
      refine List.mem_map_of_mem (f := Item.ident) ((hl' i hi).2 ?_)
      by_contra hc
      refine hng ((grounded_survivors hn _).1 (.intro _ i.refs (mem_itemDefs.2 ⟨i, hi, rfl, rfl⟩) fun y hy => ?_))
      by_contra hy'
      exact hc ⟨y, hy, hy'⟩

/-- **C09, what is left out.** When names are distinct, a defined name is generated if and only if it does not depend, directly
or indirectly, on a cycle or on an undefined name. -/
theorem C09_generated_iff (factor : Prefix → M) (t : UnresolvedTemplates E M) (defs : Defs E M) (ds : List Diag)
    (run : runUnitSystem factor t = some (defs, ds))
    (distinct : (UnresolvedTemplates.expand (MagOps.one E) factor t).names.Nodup)
    (x : Str) (hx : x ∈ (UnresolvedTemplates.expand (MagOps.one E) factor t).names) :
    x ∈ defs.names ↔ ¬ DependsOnCycleOrUndefined (UnresolvedTemplates.expand (MagOps.one E) factor t).definitions x := by
  rw [(run_outcome run distinct).1, ← not_grounded_iff, not_not]
  · rwa [names_eq_definitions]
  · rwa [names_eq_definitions]

/-- **C09, what is reported.** When names are distinct, a name is reported as unresolvable if and only if it depends, directly or
indirectly, on a cycle or on an undefined name, and the statement that introduces it mentions defined names only (if it mentions
an undefined one it is reported as such instead, see C39). -/
theorem C09_unresolvable_iff (factor : Prefix → M) (t : UnresolvedTemplates E M) (defs : Defs E M) (ds : List Diag)
    (run : runUnitSystem factor t = some (defs, ds))
    (distinct : (UnresolvedTemplates.expand (MagOps.one E) factor t).names.Nodup) (x : Str) :
    (∃ xs, Diag.unresolvable xs ∈ ds ∧ x ∈ xs) ↔
      (∃ rs, t.Introduces x rs ∧ ∀ y ∈ rs, y ∈ (UnresolvedTemplates.expand (MagOps.one E) factor t).names) ∧
      DependsOnCycleOrUndefined (UnresolvedTemplates.expand (MagOps.one E) factor t).definitions x := by
  rw [(run_outcome run distinct).2, ← survivors_introduces distinct]
  refine and_congr_right fun h => ?_
  rw [not_grounded_iff]
  · rwa [names_eq_definitions]
  · rw [names_eq_definitions, ← allItems_ident]
    obtain ⟨i, hi, rfl⟩ := List.mem_map.1 h
    exact List.mem_map_of_mem (f := Item.ident) (mem_survivors hi)

theorem introduces_iff {one : M} (x : Str) : (∃ rs, t.Introduces x rs) ↔ x ∈ (UnresolvedTemplates.expand one factor t).names := by
  unfold Unresolved.Introduces Unresolved.names
  simp only [UnresolvedTemplates.expand, List.mem_append, List.mem_map, List.mem_flatMap]
  constructor
  · rintro ⟨rs, ⟨d, hd, rfl, _⟩ | ⟨v, hv, ⟨pre, al, h1, h2, rfl⟩, _⟩ | ⟨c, hc, rfl, _⟩⟩
    · exact .inl (.inl ⟨d, hd, rfl⟩)
    · exact .inl (.inr ⟨_, ⟨v, hv, UnitTemplate.mem_expand.2 ⟨pre, al, h1, h2, rfl⟩⟩, formatName_eq v pre al⟩)
    · exact .inr ⟨c, hc, rfl⟩
  · rintro ((⟨d, hd, rfl⟩ | ⟨w, ⟨v, hv, hw⟩, rfl⟩) | ⟨c, hc, rfl⟩)
    · exact ⟨_, .inl ⟨d, hd, rfl, rfl⟩⟩
    · obtain ⟨pre, al, h1, h2, rfl⟩ := UnitTemplate.mem_expand.1 hw
      exact ⟨_, .inr (.inl ⟨v, hv, ⟨pre, al, h1, h2, formatName_eq v pre al⟩, rfl⟩)⟩
    · exact ⟨_, .inr (.inr ⟨c, hc, rfl, rfl⟩)⟩

/-- **C09, fully defined systems.** When names are distinct and every mentioned name is defined, exactly the names depending on a
cycle are reported as unresolvable. -/
theorem C09_recursive_iff (factor : Prefix → M) (t : UnresolvedTemplates E M) (defs : Defs E M) (ds : List Diag)
    (run : runUnitSystem factor t = some (defs, ds))
    (distinct : (UnresolvedTemplates.expand (MagOps.one E) factor t).names.Nodup)
    (defined : ∀ x rs, t.Introduces x rs → ∀ y ∈ rs, y ∈ (UnresolvedTemplates.expand (MagOps.one E) factor t).names) (x : Str) :
    (∃ xs, Diag.unresolvable xs ∈ ds ∧ x ∈ xs) ↔
      ∃ y, DependsOn (UnresolvedTemplates.expand (MagOps.one E) factor t).definitions x y ∧
        DependsOn (UnresolvedTemplates.expand (MagOps.one E) factor t).definitions y y := by
  rw [C09_unresolvable_iff factor t defs ds run distinct]
  have hment : ∀ a b, Mentions (UnresolvedTemplates.expand (MagOps.one E) factor t).definitions a b →
      a ∈ (UnresolvedTemplates.expand (MagOps.one E) factor t).names ∧
      b ∈ (UnresolvedTemplates.expand (MagOps.one E) factor t).names := by
    rintro a b ⟨rs, h1, h2⟩
    refine ⟨by rw [← names_eq_definitions]; exact List.mem_map_of_mem (f := Prod.fst) h1, ?_⟩
    rw [← itemDefs_allItems] at h1
    obtain ⟨i, hi, rfl, rfl⟩ := mem_itemDefs.1 h1
    have hin : i.ident ∈ (UnresolvedTemplates.expand (MagOps.one E) factor t).names := by
      rw [← allItems_ident]; exact List.mem_map_of_mem (f := Item.ident) hi
    obtain ⟨rs, hrs⟩ := (introduces_iff (factor := factor) (t := t) (one := MagOps.one E) i.ident).2 hin
    have := (survivors_introduces (factor := factor) (one := MagOps.one E) distinct i.ident).2 ⟨rs, hrs, defined _ _ hrs⟩
    obtain ⟨j, hj, hji⟩ := List.mem_map.1 this
    have hji' := item_unique (by rw [allItems_ident]; exact distinct) (mem_survivors hj) hi hji
    subst hji'
    have := ((mem_survivors_iff distinct).1 hj).2.1 b h2
    rwa [allItems_ident] at this
  constructor
  · rintro ⟨_, y, h1, h2 | h2⟩
    · exact ⟨y, h1, h2⟩
    · exfalso
      rw [names_eq_definitions] at h2
      rcases Relation.TransGen.tail'_iff.1 h1 with ⟨z, _, hz⟩
      exact h2 (hment z y hz).2
  · rintro ⟨y, h1, h2⟩
    refine ⟨?_, y, h1, .inl h2⟩
    obtain ⟨z, hz, _⟩ := Relation.TransGen.head'_iff.1 h1
    obtain ⟨rs, hrs⟩ := (introduces_iff (factor := factor) (t := t) (one := MagOps.one E) x).2 (hment x z hz).1
    exact ⟨rs, hrs, defined _ _ hrs⟩

end
end

/-! ### The hypotheses are met -/
section
attribute [local instance] Sample.exactMag
open Sample

/-- tests/compile_fail/resolver_unresolvable.rs extended: `a` and `b` define each other, `c` depends on them, `d` mentions an
undefined name, `e` depends on `d`. -/
def cyclic : UnresolvedTemplates Int ℚ where
  quantityTypes := [str!"Q"]
  dimensionTypes := [str!"D"]
  dimensions := [⟨str!"Length", .base ()⟩]
  units := [baseUnit (str!"meters") (str!"m") (str!"Length") [.kilo],
    unit (str!"a") (.value (v (str!"b"))), unit (str!"b") (.value (v (str!"a"))),
    unit (str!"c") (.binary (.value (v (str!"a"))) .mul (v (str!"meters"))),
    unit (str!"d") (.value (v (str!"nowhere"))), unit (str!"e") (.value (v (str!"d")))]
  constants := []

theorem cyclic_run : ∃ defs, runUnitSystem exactFactor cyclic =
    some (defs, [.undefined [str!"nowhere"], .unresolvable [str!"a", str!"b", str!"c", str!"e"]]) := by
  have h : (resolveDefsFuel (UnresolvedTemplates.expand 1 exactFactor cyclic)).map Prod.snd =
    some [.undefined [str!"nowhere"], .unresolvable [str!"a", str!"b", str!"c", str!"e"]] := by decide +kernel
  unfold runUnitSystem
  rw [resolveDefs_eq_fuel]
  change ∃ defs, resolveDefsFuel (UnresolvedTemplates.expand 1 exactFactor cyclic) = some (defs, _)
  cases hr : resolveDefsFuel (UnresolvedTemplates.expand 1 exactFactor cyclic) with
  | none => rw [hr] at h; simp at h
  | some p => rw [hr] at h; simp at h; exact ⟨p.1, by rw [← h]⟩

example : (UnresolvedTemplates.expand 1 exactFactor cyclic).names.Nodup := by decide

/-- Exponents beyond `i64`. -/
def overflowing : UnresolvedTemplates Int ℚ where
  quantityTypes := []
  dimensionTypes := []
  dimensions := [⟨str!"L", .base ()⟩, ⟨str!"A", .expression (.value (pw (str!"L") (2 ^ 62)))⟩,
    ⟨str!"B", .expression (.binary (.value (v (str!"A"))) .mul (v (str!"A")))⟩]
  units := []
  constants := []

-- A panic does happen.
example : runUnitSystem exactFactor overflowing = none := by
  have h : (resolveDefsFuel (UnresolvedTemplates.expand 1 exactFactor overflowing)).isNone = true := by decide +kernel
  unfold runUnitSystem
  rw [resolveDefs_eq_fuel]
  exact Option.isNone_iff_eq_none.1 h

end
end Diman
