import Verif.Props.C08
import Verif.Props.C10
import Verif.Props.C40
/-!
# C52 — unit systems can be extended and cut down without changing what remains
Adding statements to an accepted unit system does not change what the old ones mean; deleting statements that nothing else mentions keeps
the system acceptable; and a new definition that is correct by itself is accepted.
-/
set_option linter.unusedSectionVars false
namespace Diman

/-- `t'` contains all statements of `t`, in some order, and possibly others. The two type statements are the same. -/
structure Extends {E M U : Type} (t t' : Unresolved E M U) : Prop where
  dimensionTypes : t.dimensionTypes = t'.dimensionTypes
  quantityTypes : t.quantityTypes = t'.quantityTypes
  dimensions : t.dimensions.Subperm t'.dimensions
  units : t.units.Subperm t'.units
  constants : t.constants.Subperm t'.constants

/-- Every name that a statement mentions, in its definition or as its annotation, is defined by the statements. -/
structure SelfContained {E M : Type} (u : UnresolvedDefs E M) : Prop where
  definitions : ∀ x mentions, (x, mentions) ∈ u.definitions → ∀ y ∈ mentions, y ∈ u.names
  units : ∀ x ∈ u.units, ∀ a, x.annotation = some a → a ∈ u.names
  constants : ∀ c ∈ u.constants, ∀ a, c.annotation = some a → a ∈ u.names

theorem List.Subperm.filterMap' {α β : Type} {l l' : List α} (f : α → Option β) (h : l.Subperm l') :
    (l.filterMap f).Subperm (l'.filterMap f) := by
  obtain ⟨m, hp, hs⟩ := h
  exact ⟨m.filterMap f, hp.filterMap f, hs.filterMap f⟩

theorem List.Subperm.flatMap' {α β : Type} {l l' : List α} (f : α → List β) (h : l.Subperm l') :
    (l.flatMap f).Subperm (l'.flatMap f) := by
  obtain ⟨m, hp, hs⟩ := h
  refine ⟨m.flatMap f, hp.flatMap_right f, ?_⟩
  clear hp
  induction hs with
  | slnil => simp
  | cons a _ ih => simp only [List.flatMap_cons]; exact ih.trans (List.sublist_append_right _ _)
  | cons_cons a _ ih => simp only [List.flatMap_cons]; exact (List.Sublist.refl _).append ih

theorem List.Subperm.map' {α β : Type} {l l' : List α} (f : α → β) (h : l.Subperm l') : (l.map f).Subperm (l'.map f) := by
  obtain ⟨m, hp, hs⟩ := h
  exact ⟨m.map f, hp.map f, hs.map f⟩

theorem List.Subperm.append' {α : Type} {a a' b b' : List α} (h : a.Subperm a') (h' : b.Subperm b') : (a ++ b).Subperm (a' ++ b') := by
  obtain ⟨m, hp, hs⟩ := h
  obtain ⟨m', hp', hs'⟩ := h'
  exact ⟨m ++ m', hp.append hp', hs.append hs'⟩

theorem List.Subperm.nodup' {α : Type} {l l' : List α} (h : l.Subperm l') (hn : l'.Nodup) : l.Nodup := by
  obtain ⟨m, hp, hs⟩ := h
  exact hp.nodup_iff.1 (hn.sublist hs)

section
variable {E M : Type} [Exponent E] [MagOps E M]

theorem Extends.expand {one : M} {factor : Prefix → M} {t t' : UnresolvedTemplates E M} (h : Extends t t') :
    Extends (UnresolvedTemplates.expand one factor t) (UnresolvedTemplates.expand one factor t') :=
  ⟨h.dimensionTypes, h.quantityTypes, h.dimensions, List.Subperm.flatMap' _ h.units, h.constants⟩

theorem Extends.items {u u' : UnresolvedDefs E M} (h : Extends u u') {i : Item E M} (hi : i ∈ allItems u) : i ∈ allItems u' := by
  simp only [mem_allItems] at hi ⊢
  rcases hi with ⟨d, hd, e⟩ | ⟨d, hd, e⟩ | ⟨d, hd, e⟩
  · exact .inl ⟨d, h.dimensions.subset hd, e⟩
  · exact .inr (.inl ⟨d, h.units.subset hd, e⟩)
  · exact .inr (.inr ⟨d, h.constants.subset hd, e⟩)

theorem Extends.names {u u' : UnresolvedDefs E M} (h : Extends u u') : u.names.Subperm u'.names :=
  List.Subperm.append' (List.Subperm.append' (List.Subperm.map' _ h.dimensions) (List.Subperm.map' _ h.units)) (List.Subperm.map' _ h.constants)

/-- Two solutions agree wherever both systems contain the definitions. -/
theorem Solution.agree {l l' : List (Item E M)} {r r' : BMap (ResolvedItem E M)} (h : Solution l r) (h' : Solution l' r')
    (sub : ∀ i ∈ l, i ∈ l') {x : Str} (hx : Grounded (itemDefs l) x) : r.get x = r'.get x := by
  induction hx with
  | intro x rs hx _ ih =>
    obtain ⟨i, hi, rfl, rfl⟩ := mem_itemDefs.1 hx
    obtain ⟨d1, g1, e1⟩ := h.eqn i hi
    obtain ⟨d2, g2, e2⟩ := h'.eqn i (sub i hi)
    have := resolveDimensions_congr ih
    rw [e1, e2] at this
    injection this with this; subst this
    rw [g1, g2]

theorem Accepted.agree {u u' : UnresolvedDefs E M} {defs defs' : Defs E M} {res res' : BMap (ResolvedItem E M)}
    (ext : Extends u u') (h : Accepted u defs res) (h' : Accepted u' defs' res') {x : Str} (hx : x ∈ u.names) : res.get x = res'.get x := by
  refine h.solution.agree h'.solution (fun i => ext.items) ?_
  rw [itemDefs_allItems]
  exact h.grounded x hx

/-- **C52.** Adding statements to a unit system does not change what the old ones mean: every dimension, unit and constant of the old
system is in the new one with the same name, the same exponents, the same conversion factor (bit for bit) and the same symbol. -/
theorem C52_extension (factor : Prefix → M) (t t' : UnresolvedTemplates E M) (ext : Extends t t') (defs defs' : Defs E M)
    (accepted : runUnitSystem factor t = some (defs, [])) (accepted' : runUnitSystem factor t' = some (defs', [])) :
    (∀ D ∈ defs.dimensions, D ∈ defs'.dimensions) ∧ (∀ U ∈ defs.units, U ∈ defs'.units) ∧ (∀ C ∈ defs.constants, C ∈ defs'.constants) ∧
    defs'.quantityType = defs.quantityType ∧ defs'.dimensionType = defs.dimensionType ∧
    defs.baseDimensions.Subperm defs'.baseDimensions := by
  obtain ⟨res, h⟩ := accepted_of_run accepted
  obtain ⟨res', h'⟩ := accepted_of_run accepted'
  have ex := ext.expand (one := MagOps.one E) (factor := factor)
  have same := fun x hx => h.agree ex h' (x := x) hx
  refine ⟨fun D hD => ?_, fun U hU => ?_, fun C hC => ?_, ?_, ?_, ?_⟩
  · obtain ⟨d, hd, dm, g, rfl⟩ := h.dim_from hD
    have hn : d.name ∈ (UnresolvedTemplates.expand (MagOps.one E) factor t).names := by
      simp only [Unresolved.names, List.mem_append, List.mem_map]; exact .inl (.inl ⟨d, hd, rfl⟩)
    exact ((dims_of_solution h'.solution h'.dims).1 _).2 ⟨d, ex.dimensions.subset hd, dm, same _ hn ▸ g, rfl⟩
  · obtain ⟨d, hd, dm, g, rfl⟩ := h.unit_from hU
    have hn : d.name ∈ (UnresolvedTemplates.expand (MagOps.one E) factor t).names := by
      simp only [Unresolved.names, List.mem_append, List.mem_map]; exact .inl (.inr ⟨d, hd, rfl⟩)
    exact ((units_of_solution h'.solution h'.units).1 _).2 ⟨d, ex.units.subset hd, dm, same _ hn ▸ g, rfl⟩
  · obtain ⟨d, hd, dm, g, rfl⟩ := h.const_from hC
    have hn : d.name ∈ (UnresolvedTemplates.expand (MagOps.one E) factor t).names := by
      simp only [Unresolved.names, List.mem_append, List.mem_map]; exact .inr ⟨d, hd, rfl⟩
    exact ((constants_of_solution h'.solution h'.constants).1 _).2 ⟨d, ex.constants.subset hd, dm, same _ hn ▸ g, rfl⟩
  · have := h.quantity
    rw [ex.quantityTypes, h'.quantity] at this
    simpa using this
  · have := h.dimension
    rw [ex.dimensionTypes, h'.dimension] at this
    simpa using this
  · rw [h.base_dims, h'.base_dims]
    obtain ⟨m, hp, hs⟩ := ext.dimensions
    exact List.Subperm.map' _ ⟨m.filter _, hp.filter _, hs.filter _⟩

theorem BMap.get_filter {V : Type} (m : BMap V) (p : Str → Bool) (k : Str) :
    BMap.get (m.filter fun e => p e.1) k = if p k then m.get k else none := by
  induction m with
  | nil => simp [BMap.get]
  | cons e m ih =>
    obtain ⟨k', v⟩ := e
    by_cases hp : p k' = true
    · simp only [List.filter_cons, hp, if_true, BMap.get]
      by_cases hk : k' = k
      · subst hk; simp [hp]
      · simp [hk, ih]
    · simp only [List.filter_cons, hp, Bool.false_eq_true, if_false, BMap.get, ih]
      by_cases hk : k' = k
      · subst hk; simp [hp]
      · simp [hk]

theorem checkAnnotations_nil {res : BMap (ResolvedItem E M)} : checkAnnotations res = [] ↔ ∀ p ∈ res, ∀ a, p.2.item.annotation = some a →
    ∃ r, res.get a = some r ∧ r.item.kind = .dimension ∧ r.dimensions.dims.eq p.2.dimensions.dims = true := by
  unfold checkAnnotations
  rw [List.flatMap_eq_nil_iff]
  refine forall₂_congr fun p hp => ?_
  obtain ⟨k, r0⟩ := p
  simp only
  cases ha : r0.item.annotation with
  | none => simp
  | some a =>
    simp only [Option.some.injEq, forall_eq']
    cases hg : res.get a with
    | none => simp
    | some r =>
      simp only [Option.some.injEq, exists_eq_left']
      by_cases hk : r.item.kind = .dimension <;> simp [hk]

theorem checkBaseSymbols_nil {us : List (UnitDef E M)} : checkBaseSymbols us = [] ↔ ∀ U ∈ us, U.isBase = true → U.symbol.isSome := by
  unfold checkBaseSymbols
  rw [List.filterMap_eq_nil_iff]
  refine forall₂_congr fun U hU => ?_
  cases U.isBase <;> cases U.symbol <;> simp

theorem mem_names {u : UnresolvedDefs E M} {x : Str} : x ∈ u.names ↔ ∃ i ∈ allItems u, i.ident = x := by
  rw [← allItems_ident, List.mem_map]

theorem item_definition {u : UnresolvedDefs E M} {i : Item E M} (hi : i ∈ allItems u) : (i.ident, i.refs) ∈ u.definitions := by
  rw [← itemDefs_allItems]
  exact mem_itemDefs.2 ⟨i, hi, rfl, rfl⟩

theorem SelfContained.annotation {u : UnresolvedDefs E M} (h : SelfContained u) {i : Item E M} (hi : i ∈ allItems u) {a : Str}
    (ha : i.annotation = some a) : a ∈ u.names := by
  rcases mem_allItems.1 hi with ⟨d, hd, rfl⟩ | ⟨d, hd, rfl⟩ | ⟨d, hd, rfl⟩
  · simp [Item.annotation, Item.ofDimension] at ha
  · exact h.units d hd a ha
  · exact h.constants d hd a ha

/-- **C52.** Deleting statements keeps a unit system accepted, provided that everything the remaining statements mention remains. -/
theorem C52_removal (factor : Prefix → M) (t t' : UnresolvedTemplates E M) (ext : Extends t t')
    (closed : SelfContained (UnresolvedTemplates.expand (MagOps.one E) factor t)) (defs' : Defs E M)
    (accepted' : runUnitSystem factor t' = some (defs', [])) : ∃ defs, runUnitSystem factor t = some (defs, []) := by
  obtain ⟨res', h'⟩ := accepted_of_run accepted'
  have ex := ext.expand (one := MagOps.one E) (factor := factor)
  generalize hu : UnresolvedTemplates.expand (MagOps.one E) factor t = u at *
  generalize hu' : UnresolvedTemplates.expand (MagOps.one E) factor t' = u' at *
  let res : BMap (ResolvedItem E M) := res'.filter fun e => decide (e.1 ∈ u.names)
  have hget : ∀ k, res.get k = if k ∈ u.names then res'.get k else none := fun k => by
    have := BMap.get_filter res' (fun k => decide (k ∈ u.names)) k
    simpa using this
  have refs : ∀ i ∈ allItems u, ∀ x ∈ i.refs, x ∈ u.names := fun i hi x hx => closed.definitions _ _ (item_definition hi) x hx
  have unique : ∀ i ∈ allItems u', ∀ j ∈ allItems u', i.ident = j.ident → i = j := by
    intro i hi j hj he
    obtain ⟨d, g, _⟩ := h'.solution.eqn i hi
    obtain ⟨d', g', _⟩ := h'.solution.eqn j hj
    rw [he, g'] at g
    simp only [Option.some.injEq, ResolvedItem.mk.injEq] at g
    exact g.1.symm
  have hS : Solution (allItems u) res := by
    refine ⟨List.Pairwise.sublist (List.filter_sublist.map _) h'.solution.sorted, fun i hi => ?_, fun k r hk => ?_⟩
    · obtain ⟨d, g, e⟩ := h'.solution.eqn i (ex.items hi)
      refine ⟨d, ?_, ?_⟩
      · rw [hget, if_pos (mem_names.2 ⟨i, hi, rfl⟩), g]
      · rw [← e]
        exact resolveDimensions_congr fun x hx => by rw [hget, if_pos (refs i hi x hx)]
    · rw [hget] at hk
      split at hk
      · rename_i hn
        obtain ⟨hm, hid⟩ := h'.solution.only k r hk
        obtain ⟨j, hj, hjk⟩ := mem_names.1 hn
        rw [unique _ hm j (ex.items hj) (hid.trans hjk.symm)]
        exact ⟨hj, hjk⟩
      · simp at hk
  have hd := getDimensions_isSome res
  have hun := getUnits_isSome res
  have hc := getConstants_isSome res
  obtain ⟨ds, hd⟩ := Option.isSome_iff_exists.1 hd
  obtain ⟨us, hun⟩ := Option.isSome_iff_exists.1 hun
  obtain ⟨cs, hc⟩ := Option.isSome_iff_exists.1 hc
  have grounded : ∀ x, Grounded u'.definitions x → x ∈ u.names → Grounded u.definitions x := by
    intro x hx
    induction hx with
    | intro x rs hx _ ih =>
      intro hn
      obtain ⟨i, hi, rfl⟩ := mem_names.1 hn
      have : rs = i.refs := defs_unique (by rw [← itemDefs_allItems, itemDefs_names, allItems_ident]; exact h'.nodup) hx (item_definition (ex.items hi))
      subst this
      exact .intro _ _ (item_definition hi) fun y hy => ih y hy (refs i hi y hy)
  have hb : (baseOf u.units).Subperm (baseOf u'.units) := List.Subperm.filterMap' _ ex.units
  refine ⟨⟨defs'.dimensionType, defs'.quantityType, ds, us, cs, baseDimensions u.dimensions⟩, ?_⟩
  have hauto : u.AutoOk := hu ▸ expand_autoOk _ _ t
  change resolveDefs (UnresolvedTemplates.expand (MagOps.one E) factor t) = _
  rw [hu]
  refine (accepted_iff hauto).2 ⟨res, ?_, ?_, ⟨fun d hd => ?_, List.Subperm.nodup' hb h'.base_units.2⟩,
    List.Subperm.nodup' (List.Subperm.filterMap' _ ex.units) h'.symbols, rfl, refs, List.Subperm.nodup' ex.names h'.nodup,
    fun i hi j hj => h'.kinds i (ex.items hi) j (ex.items hj),
    fun x hx => grounded x (h'.grounded x (ex.names.subset hx)) hx, hS, ?_, hd, hun, hc, ?_⟩
  · rw [ex.quantityTypes]; exact h'.quantity
  · rw [ex.dimensionTypes]; exact h'.dimension
  · obtain ⟨e, he, hbase, hname⟩ := h'.base_units.1 d (hb.subset hd)
    simp only [baseOf, List.mem_filterMap] at hd
    obtain ⟨x, hx, hxd⟩ := hd
    have hdn : d ∈ (Item.ofUnit x).refs := by
      rw [ofUnit_refs]
      unfold UnitEntry.mentions
      split at hxd
      · simp at hxd
      · cases hdef : x.definition with
        | base b => rw [hdef] at hxd; simp at hxd; simp [hxd]
        | expression e => rw [hdef] at hxd; simp at hxd
    obtain ⟨j, hj, hjd⟩ := mem_names.1 (refs _ (mem_allItems.2 (.inr (.inl ⟨x, hx, rfl⟩))) d hdn)
    have := unique _ (ex.items hj) (.ofDimension e) (mem_allItems.2 (.inl ⟨e, he, rfl⟩)) (by rw [hjd]; exact hname.symm)
    subst this
    rcases mem_allItems.1 hj with ⟨e', he', h1⟩ | ⟨e', he', h1⟩ | ⟨e', he', h1⟩
    · have : e = e' := by
        have := congrArg Item.type h1
        simpa [Item.ofDimension] using this
      exact ⟨e, this ▸ he', hbase, hname⟩
    · have := congrArg Item.type h1
      simp [Item.ofDimension, Item.ofUnit] at this
    · have := congrArg Item.type h1
      simp [Item.ofDimension, Item.ofConstant] at this
  · rw [checkAnnotations_nil]
    intro p hp a ha
    have hp' : p ∈ res' := List.mem_of_mem_filter hp
    obtain ⟨r, hr, hk⟩ := checkAnnotations_nil.1 h'.annotations p hp' a ha
    obtain ⟨hm, hid⟩ := hS.only _ _ ((BMap.mem_iff_get hS.sorted).1 (show (p.1, p.2) ∈ res from hp))
    refine ⟨r, ?_, hk⟩
    rw [hget, if_pos (closed.annotation hm ha), hr]
  · rw [checkBaseSymbols_nil]
    intro U hU
    obtain ⟨x, hx, dm, g, rfl⟩ := ((units_of_solution hS hun).1 U).1 hU
    refine checkBaseSymbols_nil.1 h'.base_symbols _ (((units_of_solution h'.solution h'.units).1 _).2 ⟨x, ex.units.subset hx, dm, ?_, rfl⟩)
    rw [hget] at g
    split at g
    · exact g
    · simp at g

/-! ### New definitions -/

/-- What a definition finds under the name `x`: the exponents and the factor of the unit or constant of that name. -/
def Defs.valueOf (defs : Defs E M) (x : Str) : DM E M :=
  match defs.units.find? (fun u => u.name = x) with
  | some u => ⟨u.dims, u.mag⟩
  | none => match defs.constants.find? (fun c => c.name = x) with
    | some c => ⟨c.dims, c.mag⟩
    | none => ⟨[], MagOps.one E⟩

/-- The exponents of the dimension called `x`. -/
def Defs.dimsOf (defs : Defs E M) (x : Str) : Dims E :=
  match defs.dimensions.find? (fun d => d.name = x) with
  | some d => d.dims
  | none => []

/-- A number is a factor without dimension. -/
def Defs.atom (defs : Defs E M) : Atom M → DM E M
  | .concrete m => ⟨[], m⟩
  | .other x => defs.valueOf x

/-- The number `1` in a dimension expression. -/
def Defs.dimAtom (defs : Defs E M) : Atom Unit → DM E M
  | .concrete _ => ⟨[], MagOps.one E⟩
  | .other x => ⟨defs.dimsOf x, MagOps.one E⟩

variable {u u' : UnresolvedDefs E M} {defs : Defs E M} {res : BMap (ResolvedItem E M)}

/-- Everything that acceptance says about items survives the addition of one good item. -/
theorem Accepted.add_item (h : Accepted u defs res) {i : Item E M} (items : (allItems u').Perm (i :: allItems u))
    (fresh : i.ident ∉ u.names) (refs : ∀ x ∈ i.refs, x ∈ u.names)
    (kinds : ∀ j ∈ allItems u, j.ident ∈ i.refs → i.kind.allows j.kind = true)
    {dm : DM E M} (val : resolveDimensions res i = some dm)
    (ann : ∀ a, i.annotation = some a → ∃ r, res.get a = some r ∧ r.item.kind = .dimension ∧ r.dimensions.dims.eq dm.dims = true) :
    Solution (allItems u') (res.insert i.ident ⟨i, dm⟩) ∧ (∀ j ∈ allItems u', ∀ x ∈ j.refs, x ∈ u'.names) ∧ u'.names.Nodup ∧
    (∀ j ∈ allItems u', ∀ k ∈ allItems u', k.ident ∈ j.refs → j.kind.allows k.kind = true) ∧
    (∀ x ∈ u'.names, Grounded u'.definitions x) ∧ checkAnnotations (res.insert i.ident ⟨i, dm⟩) = [] := by
  have hmem : ∀ j, j ∈ allItems u' ↔ j = i ∨ j ∈ allItems u := fun j => by rw [items.mem_iff, List.mem_cons]
  have hnames : ∀ x, x ∈ u'.names ↔ x = i.ident ∨ x ∈ u.names := by
    intro x
    simp only [mem_names, hmem]
    constructor
    · rintro ⟨j, rfl | hj, rfl⟩
      · exact .inl rfl
      · exact .inr ⟨j, hj, rfl⟩
    · rintro (rfl | ⟨j, hj, rfl⟩)
      · exact ⟨i, .inl rfl, rfl⟩
      · exact ⟨j, .inr hj, rfl⟩
  have hget : ∀ x ∈ u.names, (res.insert i.ident ⟨i, dm⟩).get x = res.get x := by
    intro x hx
    rw [BMap.get_insert, if_neg]
    rintro rfl
    exact fresh hx
  have refs' : ∀ j ∈ allItems u', ∀ x ∈ j.refs, x ∈ u.names := by
    intro j hj x hx
    rcases (hmem j).1 hj with rfl | hj
    · exact refs x hx
    · exact h.defined j hj x hx
  have hres : ∀ k r, res.get k = some r → k ∈ u.names := fun k r hk =>
    let ⟨hm, hid⟩ := h.solution.only k r hk
    mem_names.2 ⟨_, hm, hid⟩
  have hS : Solution (allItems u') (res.insert i.ident ⟨i, dm⟩) := by
    refine ⟨BMap.sorted_insert h.solution.sorted _ _, fun j hj => ?_, fun k r hk => ?_⟩
    · have hr : resolveDimensions (res.insert i.ident ⟨i, dm⟩) j = resolveDimensions res j :=
        resolveDimensions_congr fun x hx => hget x (refs' j hj x hx)
      rcases (hmem j).1 hj with rfl | hj
      · exact ⟨dm, by rw [BMap.get_insert, if_pos rfl], by rw [hr, val]⟩
      · obtain ⟨d, g, e⟩ := h.solution.eqn j hj
        exact ⟨d, by rw [hget _ (mem_names.2 ⟨j, hj, rfl⟩), g], by rw [hr, e]⟩
    · rw [BMap.get_insert] at hk
      split at hk
      · rename_i hki
        injection hk with hk
        subst hk
        exact ⟨(hmem _).2 (.inl rfl), hki⟩
      · obtain ⟨hm, hid⟩ := h.solution.only k r hk
        exact ⟨(hmem _).2 (.inr hm), hid⟩
  refine ⟨hS, fun j hj x hx => (hnames x).2 (.inr (refs' j hj x hx)), ?_, ?_, ?_, ?_⟩
  · have hp := items.map Item.ident
    rw [allItems_ident, List.map_cons, allItems_ident] at hp
    rw [hp.nodup_iff, List.nodup_cons]
    exact ⟨fresh, h.nodup⟩
  · intro j hj k hk hx
    rcases (hmem k).1 hk with rfl | hk
    · exact absurd (refs' j hj _ hx) fresh
    · rcases (hmem j).1 hj with rfl | hj
      · exact kinds k hk hx
      · exact h.kinds j hj k hk hx
  · have mono : ∀ x ∈ u.names, Grounded u'.definitions x := by
      intro x hx
      refine grounded_mono (fun p hp => ?_) (h.grounded x hx)
      rw [← itemDefs_allItems] at hp ⊢
      obtain ⟨j, hj, h1, h2⟩ := mem_itemDefs.1 (show (p.1, p.2) ∈ _ from hp)
      exact mem_itemDefs.2 ⟨j, (hmem j).2 (.inr hj), h1, h2⟩
    intro x hx
    rcases (hnames x).1 hx with rfl | hx
    · exact .intro _ _ (item_definition ((hmem i).2 (.inl rfl))) fun y hy => mono y (refs y hy)
    · exact mono x hx
  · rw [checkAnnotations_nil]
    rintro ⟨k, r⟩ hp a ha
    have hg := (BMap.mem_iff_get (BMap.sorted_insert h.solution.sorted _ _)).1 hp
    rw [BMap.get_insert] at hg
    split at hg
    · injection hg with hg
      subst hg
      obtain ⟨r', hr', hk, he⟩ := ann a ha
      exact ⟨r', by rw [hget a (hres _ _ hr'), hr'], hk, he⟩
    · obtain ⟨r', hr', hk⟩ := checkAnnotations_nil.1 h.annotations (k, r) ((BMap.mem_iff_get h.solution.sorted).2 hg) a ha
      exact ⟨r', by rw [hget a (hres _ _ hr'), hr'], hk⟩

theorem Accepted.valueOf (h : Accepted u defs res) {x : Str}
    (hx : (∃ U ∈ defs.units, U.name = x) ∨ ∃ C ∈ defs.constants, C.name = x) :
    ∃ r, res.get x = some r ∧ r.dimensions = defs.valueOf x ∧ r.item.kind ≠ .dimension := by
  rcases hx with ⟨U, hU, rfl⟩ | ⟨C, hC, rfl⟩
  · obtain ⟨y, hy, dm, g, rfl⟩ := h.unit_from hU
    refine ⟨_, g, ?_, by rcases ofUnit_kind y with h | h <;> simp [h]⟩
    unfold Defs.valueOf
    rw [find?_of_nodup h.unit_nodup hU]
    rfl
  · have hd : C.name ∉ defs.units.map UnitDef.name := by
      intro hc
      obtain ⟨U, hU, he⟩ := List.mem_map.1 hc
      exact h.unit_const_disjoint hU hC he
    unfold Defs.valueOf
    rw [find?_none_of_not_mem hd, find?_of_nodup h.const_nodup hC]
    obtain ⟨y, hy, dm, g, rfl⟩ := h.const_from hC
    exact ⟨_, g, rfl, by simp⟩

theorem Accepted.dimsOf (h : Accepted u defs res) {x : Str} (hx : ∃ D ∈ defs.dimensions, D.name = x) :
    ∃ r, res.get x = some r ∧ r.dimensions.dims = defs.dimsOf x ∧ r.item.kind = .dimension := by
  obtain ⟨D, hD, rfl⟩ := hx
  obtain ⟨y, hy, dm, g, rfl⟩ := h.dim_from hD
  refine ⟨_, g, ?_, rfl⟩
  unfold Defs.dimsOf
  rw [find?_of_nodup h.dim_nodup hD]

theorem Accepted.eval_atoms (h : Accepted u defs res) {e : Expr (Atom M) E}
    (known : ∀ x ∈ e.idents, (∃ U ∈ defs.units, U.name = x) ∨ ∃ C ∈ defs.constants, C.name = x)
    {i : Item E M} (hi : i.expr = e.map (Atom.mapConcrete DM.magnitude)) : resolveDimensions res i = (e.map defs.atom).eval := by
  rw [resolveDimensions_def, hi]
  have hm : (e.map (Atom.mapConcrete DM.magnitude)).mapM (leafOf res) = some ((e.map (Atom.mapConcrete DM.magnitude)).map
      (fun a => match a with | .concrete c => c | .other x => defs.valueOf x)) := by
    apply Expr.mapM_of_forall
    intro a ha
    rw [Expr.vals_map, List.mem_map] at ha
    obtain ⟨b, hb, rfl⟩ := ha
    cases b with
    | concrete c => rfl
    | other x =>
      obtain ⟨r, hr, he, _⟩ := h.valueOf (known x (by rw [Expr.idents_eq_vals, List.mem_filterMap]; exact ⟨_, hb, rfl⟩))
      simp [Atom.mapConcrete, leafOf, hr, he]
  rw [hm, Expr.map_map]
  have : ((fun a : Atom (DM E M) => match a with | .concrete c => c | .other x => defs.valueOf x) ∘ Atom.mapConcrete DM.magnitude) =
      (defs.atom : Atom M → DM E M) := by
    funext a
    cases a <;> rfl
  simp only [Option.bind_some, this]

theorem Accepted.annotated_of (h : Accepted u defs res) {a : Str} {dm : DM E M}
    (ha : ∃ D ∈ defs.dimensions, D.name = a ∧ D.dims.eq dm.dims = true) :
    ∃ r, res.get a = some r ∧ r.item.kind = .dimension ∧ r.dimensions.dims.eq dm.dims = true := by
  obtain ⟨D, hD, hn, he⟩ := ha
  obtain ⟨y, hy, d, g, rfl⟩ := h.dim_from hD
  subst hn
  exact ⟨_, g, rfl, he⟩

theorem Accepted.known_names (h : Accepted u defs res) {x : Str}
    (hx : (∃ U ∈ defs.units, U.name = x) ∨ ∃ C ∈ defs.constants, C.name = x) : x ∈ u.names := by
  obtain ⟨r, hr, _⟩ := h.valueOf hx
  obtain ⟨hm, hid⟩ := h.solution.only _ _ hr
  exact mem_names.2 ⟨_, hm, hid⟩

theorem Accepted.known_kind (h : Accepted u defs res) {j : Item E M} (hj : j ∈ allItems u)
    (hx : (∃ U ∈ defs.units, U.name = j.ident) ∨ ∃ C ∈ defs.constants, C.name = j.ident) : j.kind ≠ .dimension := by
  obtain ⟨r, hr, _, hk⟩ := h.valueOf hx
  obtain ⟨d, g, _⟩ := h.solution.eqn j hj
  rw [g] at hr
  injection hr with hr
  subst hr
  exact hk

/-- What `defs'` has compared to `defs`. -/
structure Grown (defs defs' : Defs E M) (ds : List (DimensionDef E)) (us : List (UnitDef E M)) (cs : List (ConstantDef E M)) : Prop where
  dimensions : ∀ D, D ∈ defs'.dimensions ↔ D ∈ defs.dimensions ∨ D ∈ ds
  units : ∀ U, U ∈ defs'.units ↔ U ∈ defs.units ∨ U ∈ us
  constants : ∀ C, C ∈ defs'.constants ↔ C ∈ defs.constants ∨ C ∈ cs
  quantityType : defs'.quantityType = defs.quantityType
  dimensionType : defs'.dimensionType = defs.dimensionType

theorem Accepted.get_add (h : Accepted u defs res) {i : Item E M} (fresh : i.ident ∉ u.names) {dm : DM E M} {x : Str} {r : ResolvedItem E M} :
    (res.insert i.ident ⟨i, dm⟩).get x = some r ↔ res.get x = some r ∨ (x = i.ident ∧ r = ⟨i, dm⟩) := by
  rw [BMap.get_insert]
  split
  · rename_i hx
    subst hx
    constructor
    · intro he; injection he with he; exact .inr ⟨rfl, he.symm⟩
    · rintro (he | ⟨_, rfl⟩)
      · obtain ⟨hm, hid⟩ := h.solution.only _ _ he
        exact absurd (mem_names.2 ⟨_, hm, hid⟩) fresh
      · rfl
  · rename_i hx
    constructor
    · exact .inl
    · rintro (he | ⟨hx', _⟩)
      · exact he
      · exact absurd hx'.symm hx

/-- Putting the pieces together: `defs'` is read off the enlarged map. -/
theorem Accepted.finish (h : Accepted u defs res) {i : Item E M} (fresh : i.ident ∉ u.names) {dm : DM E M}
    (hS : Solution (allItems u') (res.insert i.ident ⟨i, dm⟩)) (hd : ∀ d, d ∈ u'.dimensions ↔ d ∈ u.dimensions ∨ i = .ofDimension d)
    (hu : ∀ d, d ∈ u'.units ↔ d ∈ u.units ∨ i = .ofUnit d) (hc : ∀ d, d ∈ u'.constants ↔ d ∈ u.constants ∨ i = .ofConstant d)
    {ds us cs} (gd : getDimensions (res.insert i.ident ⟨i, dm⟩) = some ds) (gu : getUnits (res.insert i.ident ⟨i, dm⟩) = some us)
    (gc : getConstants (res.insert i.ident ⟨i, dm⟩) = some cs) :
    (∀ D, D ∈ ds ↔ D ∈ defs.dimensions ∨ ∃ d, i = .ofDimension d ∧ D = ⟨d.name, dm.dims⟩) ∧
    (∀ U, U ∈ us ↔ U ∈ defs.units ∨ ∃ d, i = .ofUnit d ∧ U = d.toDef dm) ∧
    (∀ C, C ∈ cs ↔ C ∈ defs.constants ∨ ∃ d, i = .ofConstant d ∧ C = ⟨d.name, dm.dims, dm.mag⟩) := by
  have old : ∀ j ∈ allItems u, j ≠ i := by
    rintro j hj rfl
    exact fresh (mem_names.2 ⟨j, hj, rfl⟩)
  refine ⟨fun D => ?_, fun D => ?_, fun D => ?_⟩
  · rw [(dims_of_solution hS gd).1 D, (dims_of_solution h.solution h.dims).1 D]
    constructor
    · rintro ⟨d, hd', dm', g, rfl⟩
      rcases (h.get_add fresh).1 g with g | ⟨hn, hr⟩
      · obtain ⟨hm, _⟩ := h.solution.only _ _ g
        rcases (hd d).1 hd' with hd' | rfl
        · exact .inl ⟨d, hd', dm', g, rfl⟩
        · exact absurd rfl (old _ hm)
      · simp only [ResolvedItem.mk.injEq] at hr
        obtain ⟨h1, rfl⟩ := hr
        exact .inr ⟨d, h1.symm, rfl⟩
    · rintro (⟨d, hd', dm', g, rfl⟩ | ⟨d, rfl, rfl⟩)
      · exact ⟨d, (hd d).2 (.inl hd'), dm', (h.get_add fresh).2 (.inl g), rfl⟩
      · exact ⟨d, (hd d).2 (.inr rfl), dm, (h.get_add fresh).2 (.inr ⟨rfl, rfl⟩), rfl⟩
  · rw [(units_of_solution hS gu).1 D, (units_of_solution h.solution h.units).1 D]
    constructor
    · rintro ⟨d, hd', dm', g, rfl⟩
      rcases (h.get_add fresh).1 g with g | ⟨hn, hr⟩
      · obtain ⟨hm, _⟩ := h.solution.only _ _ g
        rcases (hu d).1 hd' with hd' | rfl
        · exact .inl ⟨d, hd', dm', g, rfl⟩
        · exact absurd rfl (old _ hm)
      · simp only [ResolvedItem.mk.injEq] at hr
        obtain ⟨h1, rfl⟩ := hr
        exact .inr ⟨d, h1.symm, rfl⟩
    · rintro (⟨d, hd', dm', g, rfl⟩ | ⟨d, rfl, rfl⟩)
      · exact ⟨d, (hu d).2 (.inl hd'), dm', (h.get_add fresh).2 (.inl g), rfl⟩
      · exact ⟨d, (hu d).2 (.inr rfl), dm, (h.get_add fresh).2 (.inr ⟨rfl, rfl⟩), rfl⟩
  · rw [(constants_of_solution hS gc).1 D, (constants_of_solution h.solution h.constants).1 D]
    constructor
    · rintro ⟨d, hd', dm', g, rfl⟩
      rcases (h.get_add fresh).1 g with g | ⟨hn, hr⟩
      · obtain ⟨hm, _⟩ := h.solution.only _ _ g
        rcases (hc d).1 hd' with hd' | rfl
        · exact .inl ⟨d, hd', dm', g, rfl⟩
        · exact absurd rfl (old _ hm)
      · simp only [ResolvedItem.mk.injEq] at hr
        obtain ⟨h1, rfl⟩ := hr
        exact .inr ⟨d, h1.symm, rfl⟩
    · rintro (⟨d, hd', dm', g, rfl⟩ | ⟨d, rfl, rfl⟩)
      · exact ⟨d, (hc d).2 (.inl hd'), dm', (h.get_add fresh).2 (.inl g), rfl⟩
      · exact ⟨d, (hc d).2 (.inr rfl), dm, (h.get_add fresh).2 (.inr ⟨rfl, rfl⟩), rfl⟩

theorem ofConstant_inj {c d : ConstantEntry E M} (h : Item.ofConstant c = Item.ofConstant d) : c = d := by
  have := congrArg Item.type h
  simpa [Item.ofConstant] using this
theorem ofUnit_inj {c d : UnitEntry E M} (h : Item.ofUnit c = Item.ofUnit d) : c = d := by
  have := congrArg Item.type h
  simpa [Item.ofUnit] using this
theorem ofDimension_inj {c d : DimensionEntry E} (h : Item.ofDimension (M := M) c = Item.ofDimension d) : c = d := by
  have := congrArg Item.type h
  simpa [Item.ofDimension] using this
theorem ofUnit_ne_constant {c : UnitEntry E M} {d : ConstantEntry E M} : Item.ofUnit c ≠ Item.ofConstant d := fun h => by
  have := congrArg Item.type h
  simp [Item.ofUnit, Item.ofConstant] at this
theorem ofUnit_ne_dimension {c : UnitEntry E M} {d : DimensionEntry E} : Item.ofUnit c ≠ Item.ofDimension d := fun h => by
  have := congrArg Item.type h
  simp [Item.ofUnit, Item.ofDimension] at this
theorem ofConstant_ne_dimension {c : ConstantEntry E M} {d : DimensionEntry E} : Item.ofConstant c ≠ Item.ofDimension d := fun h => by
  have := congrArg Item.type h
  simp [Item.ofConstant, Item.ofDimension] at this

theorem Accepted.add_constant (h : Accepted u defs res) (c : ConstantEntry E M) (fresh : c.name ∉ u.names)
    (known : ∀ x ∈ c.mentions, (∃ U ∈ defs.units, U.name = x) ∨ ∃ C ∈ defs.constants, C.name = x) {dm : DM E M}
    (value : (c.rhs.map defs.atom).eval = some dm)
    (annotation : ∀ a, c.annotation = some a → ∃ D ∈ defs.dimensions, D.name = a ∧ D.dims.eq dm.dims = true) :
    ∃ defs' res', Accepted { u with constants := u.constants ++ [c] } defs' res' ∧ Grown defs defs' [] [] [⟨c.name, dm.dims, dm.mag⟩] := by
  have val : resolveDimensions res (.ofConstant c) = some dm := by rw [h.eval_atoms known rfl, value]
  have items : (allItems { u with constants := u.constants ++ [c] }).Perm (.ofConstant c :: allItems u) := by
    simp only [allItems, List.map_append, List.map_cons, List.map_nil, ← List.append_assoc]
    exact List.perm_append_singleton _ _
  have refs : ∀ x ∈ (Item.ofConstant c).refs, x ∈ u.names := fun x hx => h.known_names (known x (by rwa [ofConstant_refs] at hx))
  obtain ⟨hS, h1, h2, h3, h4, h5⟩ := h.add_item (i := .ofConstant c) items fresh refs
    (fun j hj hx => by
      have := h.known_kind hj (known _ (by rwa [ofConstant_refs] at hx))
      change Kind.allows .constant _ = true
      revert this
      cases j.kind <;> simp [Kind.allows]) val (fun a ha => h.annotated_of (annotation a ha))
  obtain ⟨ds, gd⟩ := Option.isSome_iff_exists.1 (getDimensions_isSome (res.insert (Item.ofConstant c).ident ⟨.ofConstant c, dm⟩))
  obtain ⟨us, gu⟩ := Option.isSome_iff_exists.1 (getUnits_isSome (res.insert (Item.ofConstant c).ident ⟨.ofConstant c, dm⟩))
  obtain ⟨cs, gc⟩ := Option.isSome_iff_exists.1 (getConstants_isSome (res.insert (Item.ofConstant c).ident ⟨.ofConstant c, dm⟩))
  obtain ⟨f1, f2, f3⟩ := h.finish (i := .ofConstant c) fresh hS
    (fun d => by simp [ofConstant_ne_dimension]) (fun d => by simp [ofUnit_ne_constant.symm])
    (fun d => by
      simp only [List.mem_append, List.mem_singleton]
      exact or_congr Iff.rfl ⟨fun e => by rw [e], fun e => (ofConstant_inj e).symm⟩) gd gu gc
  refine ⟨⟨defs.dimensionType, defs.quantityType, ds, us, cs, baseDimensions u.dimensions⟩, _,
    ⟨h.quantity, h.dimension, h.base_units, h.symbols, rfl, h1, h2, h3, h4, hS, h5, gd, gu, gc, ?_⟩, ⟨?_, ?_, ?_, rfl, rfl⟩⟩
  · rw [checkBaseSymbols_nil]
    intro U hU
    rcases (f2 U).1 hU with hU | ⟨d, hd, _⟩
    · exact checkBaseSymbols_nil.1 h.base_symbols U hU
    · exact absurd hd.symm ofUnit_ne_constant
  · intro D
    rw [f1]
    simp [ofConstant_ne_dimension]
  · intro D
    rw [f2]
    simp [ofUnit_ne_constant.symm]
  · intro D
    rw [f3]
    refine or_congr Iff.rfl ⟨?_, ?_⟩
    · rintro ⟨d, hd, rfl⟩
      rw [ofConstant_inj hd]
      simp
    · intro hD
      simp only [List.mem_singleton] at hD
      exact ⟨c, rfl, hD⟩

theorem Accepted.add_unit (h : Accepted u defs res) (c : UnitEntry E M) (fresh : c.name ∉ u.names)
    {e : Expr (Atom M) E} (definition : c.definition = .expression e)
    (known : ∀ x ∈ e.idents, (∃ U ∈ defs.units, U.name = x) ∨ ∃ C ∈ defs.constants, C.name = x) {dm : DM E M}
    (value : (e.map defs.atom).eval = some dm)
    (symbol : ∀ s, c.symbol = some s → ∀ x ∈ u.units, x.symbol ≠ some s)
    (annotation : ∀ a, c.annotation = some a → ∃ D ∈ defs.dimensions, D.name = a ∧ D.dims.eq dm.dims = true) :
    ∃ defs' res', Accepted { u with units := u.units ++ [c] } defs' res' ∧ Grown defs defs' [] [c.toDef dm] [] := by
  have hex : (Item.ofUnit c).expr = e.map (Atom.mapConcrete DM.magnitude) := by simp [Item.ofUnit, definition]
  have val : resolveDimensions res (.ofUnit c) = some dm := by rw [h.eval_atoms known hex, value]
  have items : (allItems { u with units := u.units ++ [c] }).Perm (.ofUnit c :: allItems u) := by
    simp only [allItems, List.map_append, List.map_cons, List.map_nil, ← List.append_assoc]
    refine ((List.perm_append_singleton (Item.ofUnit c) _).append_right _).trans ?_
    simp
  have hm : (Item.ofUnit c).refs = e.idents := by rw [ofUnit_refs]; simp [UnitEntry.mentions, definition]
  have refs : ∀ x ∈ (Item.ofUnit c).refs, x ∈ u.names := fun x hx => h.known_names (known x (by rwa [hm] at hx))
  obtain ⟨hS, h1, h2, h3, h4, h5⟩ := h.add_item (i := .ofUnit c) items fresh refs
    (fun j hj hx => by
      have := h.known_kind hj (known _ (by rwa [hm] at hx))
      rw [ofUnit_kind_expression definition]
      revert this
      cases j.kind <;> simp [Kind.allows]) val (fun a ha => h.annotated_of (annotation a ha))
  obtain ⟨ds, gd⟩ := Option.isSome_iff_exists.1 (getDimensions_isSome (res.insert (Item.ofUnit c).ident ⟨.ofUnit c, dm⟩))
  obtain ⟨us, gu⟩ := Option.isSome_iff_exists.1 (getUnits_isSome (res.insert (Item.ofUnit c).ident ⟨.ofUnit c, dm⟩))
  obtain ⟨cs, gc⟩ := Option.isSome_iff_exists.1 (getConstants_isSome (res.insert (Item.ofUnit c).ident ⟨.ofUnit c, dm⟩))
  obtain ⟨f1, f2, f3⟩ := h.finish (i := .ofUnit c) fresh hS
    (fun d => by simp [ofUnit_ne_dimension])
    (fun d => by
      simp only [List.mem_append, List.mem_singleton]
      exact or_congr Iff.rfl ⟨fun e => by rw [e], fun e => (ofUnit_inj e).symm⟩)
    (fun d => by simp [ofUnit_ne_constant]) gd gu gc
  have hbase : baseOf (u.units ++ [c]) = baseOf u.units := by
    simp [baseOf, List.filterMap_append, definition]
  refine ⟨⟨defs.dimensionType, defs.quantityType, ds, us, cs, baseDimensions u.dimensions⟩, _,
    ⟨h.quantity, h.dimension, ?_, ?_, rfl, h1, h2, h3, h4, hS, h5, gd, gu, gc, ?_⟩, ⟨?_, ?_, ?_, rfl, rfl⟩⟩
  · change (∀ d ∈ baseOf (u.units ++ [c]), _) ∧ (baseOf (u.units ++ [c])).Nodup
    rw [hbase]
    exact h.base_units
  · change ((u.units ++ [c]).filterMap UnitEntry.symbol).Nodup
    rw [List.filterMap_append]
    cases hs : c.symbol with
    | none => simpa [hs] using h.symbols
    | some s =>
      simp only [List.filterMap_cons, hs, List.filterMap_nil]
      rw [List.nodup_append]
      refine ⟨h.symbols, by simp, ?_⟩
      intro a ha b hb hab
      subst hab
      simp only [List.mem_singleton] at hb
      subst hb
      obtain ⟨x, hx, hxs⟩ := List.mem_filterMap.1 ha
      exact symbol a hs x hx hxs
  · rw [checkBaseSymbols_nil]
    intro U hU
    rcases (f2 U).1 hU with hU | ⟨d, hd, rfl⟩
    · exact checkBaseSymbols_nil.1 h.base_symbols U hU
    · rw [← ofUnit_inj hd]
      simp [UnitEntry.toDef, definition]
  · intro D
    rw [f1]
    simp [ofUnit_ne_dimension]
  · intro D
    rw [f2]
    refine or_congr Iff.rfl ⟨?_, ?_⟩
    · rintro ⟨d, hd, rfl⟩
      rw [ofUnit_inj hd]
      simp
    · intro hD
      simp only [List.mem_singleton] at hD
      exact ⟨c, rfl, hD⟩
  · intro D
    rw [f3]
    simp [ofUnit_ne_constant]

/-! ### What a definition means -/

mutual
/-- The exponents of an expression, given those of the names in it: products, quotients and powers; nothing if an exponent overflows. -/
def Expr.dimsIn {C : Type} (ρ : Str → Dims E) : Expr (Atom C) E → Option (Dims E)
  | .value f => f.dimsIn ρ
  | .binary l .mul r => do (← l.dimsIn ρ).mul (← r.dimsIn ρ)
  | .binary l .div r => do (← l.dimsIn ρ).div (← r.dimsIn ρ)
/-- The same for a factor. -/
def Factor.dimsIn {C : Type} (ρ : Str → Dims E) : Factor (Atom C) E → Option (Dims E)
  | .value (.concrete _) => some []
  | .value (.other x) => some (ρ x)
  | .power (.concrete _) _ => some []
  | .power (.other x) p => (ρ x).pow p
  | .paren e => e.dimsIn ρ
end

/-- The exponents of the unit or constant called `x`. -/
def Defs.unitDims (defs : Defs E M) (x : Str) : Dims E := (defs.valueOf x).dims

mutual
theorem Expr.eval_dimsIn {C : Type} (ρ : Str → Dims E) (f : Atom C → DM E M) (hc : ∀ c, (f (.concrete c)).dims = []) (e : Expr (Atom C) E)
    (hf : ∀ x ∈ e.idents, (f (.other x)).dims = ρ x) : ((e.map f).eval).map DM.dims = e.dimsIn ρ := by
  match e with
  | .value v => simpa [Expr.map, Expr.eval, Expr.dimsIn] using Factor.eval_dimsIn ρ f hc v (by simpa [Expr.idents] using hf)
  | .binary l o r =>
    simp only [Expr.idents, List.mem_append] at hf
    have h1 := Expr.eval_dimsIn ρ f hc l (fun x hx => hf x (.inl hx))
    have h2 := Factor.eval_dimsIn ρ f hc r (fun x hx => hf x (.inr hx))
    cases o with
    | mul =>
      simp only [Expr.map, Expr.eval, Expr.dimsIn, ← h1, ← h2]
      cases hl : (l.map f).eval with
      | none => rfl
      | some a =>
        cases hr : (r.map f).eval with
        | none => rfl
        | some b =>
          show Option.map DM.dims (do return (⟨← a.dims.mul b.dims, MagOps.mul E a.mag b.mag⟩ : DM E M)) = a.dims.mul b.dims
          cases a.dims.mul b.dims <;> rfl
    | div =>
      simp only [Expr.map, Expr.eval, Expr.dimsIn, ← h1, ← h2]
      cases hl : (l.map f).eval with
      | none => rfl
      | some a =>
        cases hr : (r.map f).eval with
        | none => rfl
        | some b =>
          show Option.map DM.dims (do return (⟨← a.dims.div b.dims, MagOps.div E a.mag b.mag⟩ : DM E M)) = a.dims.div b.dims
          cases a.dims.div b.dims <;> rfl
theorem Factor.eval_dimsIn {C : Type} (ρ : Str → Dims E) (f : Atom C → DM E M) (hc : ∀ c, (f (.concrete c)).dims = []) (e : Factor (Atom C) E)
    (hf : ∀ x ∈ e.idents, (f (.other x)).dims = ρ x) : ((e.map f).eval).map DM.dims = e.dimsIn ρ := by
  match e with
  | .value (.concrete c) => simp [Factor.map, Factor.eval, Factor.dimsIn, hc]
  | .value (.other x) => simp [Factor.map, Factor.eval, Factor.dimsIn, hf x (by simp [Factor.idents])]
  | .power (.concrete c) p =>
    show Option.map DM.dims (do return (⟨← (f (.concrete c)).dims.pow p, MagOps.pow (f (.concrete c)).mag p⟩ : DM E M)) = some []
    rw [hc]; rfl
  | .power (.other x) p =>
    show Option.map DM.dims (do return (⟨← (f (.other x)).dims.pow p, MagOps.pow (f (.other x)).mag p⟩ : DM E M)) = (ρ x).pow p
    rw [hf x (by simp [Factor.idents])]
    cases (ρ x).pow p <;> rfl
  | .paren e => simpa [Factor.map, Factor.eval, Factor.dimsIn] using Expr.eval_dimsIn ρ f hc e (by simpa [Factor.idents] using hf)
end

/-- The value of an expression is its exponents together with its factor. -/
theorem Defs.eval_atoms (defs : Defs E M) {e : Expr (Atom M) E} {ds : Dims E} (h : e.dimsIn defs.unitDims = some ds) :
    (e.map defs.atom).eval = some ⟨ds, e.specMag (Atom.mag defs.magOf)⟩ := by
  have h1 := Expr.eval_dimsIn defs.unitDims defs.atom (fun _ => rfl) e (fun _ _ => rfl)
  rw [h, Option.map_eq_some_iff] at h1
  obtain ⟨dm, hdm, rfl⟩ := h1
  rw [hdm]
  have hm := Expr.eval_mag _ hdm
  rw [Expr.specMag_congr defs.atom DM.mag (Atom.mag defs.magOf) e] at hm
  · rw [← hm]
  · intro a _
    cases a with
    | concrete c => rfl
    | other x =>
      simp only [Defs.atom, Defs.valueOf, Atom.mag, Defs.magOf]
      split
      · rename_i hf; simp [hf]
      · rename_i hf
        split
        · rename_i hg; simp [hf, hg]
        · rename_i hg; simp [hf, hg]

/-- The name is a unit or a constant of the system. -/
def Defs.HasUnit (defs : Defs E M) (x : Str) : Prop := (∃ U ∈ defs.units, U.name = x) ∨ ∃ C ∈ defs.constants, C.name = x

/-- **C52.** A new constant is accepted, has the exponents and the factor of its definition, and nothing else changes. Conditions: its
name is not taken; its definition mentions only units and constants of the system; the exponents do not overflow; and if it is annotated with a
dimension, this is its dimension (by the comparison that diman makes, see C14). -/
theorem C52_add_constant (factor : Prefix → M) (t : UnresolvedTemplates E M) (defs : Defs E M) (accepted : runUnitSystem factor t = some (defs, []))
    (c : ConstantEntry E M) (fresh : c.name ∉ (UnresolvedTemplates.expand (MagOps.one E) factor t).names)
    (known : ∀ x ∈ c.rhs.idents, defs.HasUnit x) {ds : Dims E} (dims : c.rhs.dimsIn defs.unitDims = some ds)
    (annotation : ∀ a, c.annotation = some a → ∃ D ∈ defs.dimensions, D.name = a ∧ D.dims.eq ds = true) :
    ∃ defs', runUnitSystem factor { t with constants := t.constants ++ [c] } = some (defs', []) ∧
      Grown defs defs' [] [] [⟨c.name, ds, c.rhs.specMag (Atom.mag defs.magOf)⟩] := by
  obtain ⟨res, h⟩ := accepted_of_run accepted
  obtain ⟨defs', res', h', g⟩ := h.add_constant c fresh known (defs.eval_atoms dims) annotation
  exact ⟨defs', (accepted_iff (expand_autoOk _ _ _)).2 ⟨res', h'⟩, g⟩

/-! ### Units with prefixes and aliases -/

theorem Dims.addEntry_new {a : Dims E} {k : Str} {v : E} (h : k ∉ a.map Prod.fst) : a.addEntry k v = some (a ++ [(k, v)]) := by
  induction a with
  | nil => rfl
  | cons p a ih =>
    obtain ⟨k', v'⟩ := p
    simp only [List.map_cons, List.mem_cons, not_or] at h
    simp [Dims.addEntry, Ne.symm h.1, ih h.2]

theorem Dims.mul_disjoint {a b : Dims E} (h : ((a ++ b).map Prod.fst).Nodup) : a.mul b = some (a ++ b) := by
  induction b generalizing a with
  | nil => simp [Dims.mul]
  | cons p b ih =>
    obtain ⟨k, v⟩ := p
    have hk : k ∉ a.map Prod.fst := by
      simp only [List.map_append, List.map_cons] at h
      have := (List.nodup_append.1 h).2.2
      intro hk
      exact this k hk k (by simp) rfl
    simp only [Dims.mul, Dims.addEntry_new hk]
    show Dims.mul (a ++ [(k, v)]) b = _
    rw [ih (by simpa using h)]
    simp

theorem Dims.mul_keys {a b c : Dims E} (ha : (a.map Prod.fst).Nodup) (h : a.mul b = some c) : (c.map Prod.fst).Nodup := by
  induction b generalizing a with
  | nil => simp only [Dims.mul, Option.some.injEq] at h; exact h ▸ ha
  | cons p b ih =>
    obtain ⟨k, v⟩ := p
    simp only [Dims.mul, bindM_eq_some] at h
    obtain ⟨a', h1, h2⟩ := h
    exact ih (Dims.addEntry_keys h1 ha) h2

theorem Dims.div_keys {a b c : Dims E} (ha : (a.map Prod.fst).Nodup) (h : a.div b = some c) : (c.map Prod.fst).Nodup := by
  simp only [Dims.div, bindM_eq_some] at h
  obtain ⟨b', _, h2⟩ := h
  exact Dims.mul_keys ha h2

mutual
theorem Expr.eval_keys (e : Expr (DM E M) E) (hl : ∀ d ∈ e.vals, (d.dims.map Prod.fst).Nodup) {r : DM E M} (h : e.eval = some r) :
    (r.dims.map Prod.fst).Nodup := by
  match e with
  | .value f => exact Factor.eval_keys f hl (by simpa [Expr.eval] using h)
  | .binary l o r' =>
    simp only [Expr.vals, List.mem_append] at hl
    simp only [Expr.eval, bindM_eq_some] at h
    obtain ⟨a, ha, b, hb, hm⟩ := h
    have h1 := Expr.eval_keys l (fun d hd => hl d (.inl hd)) ha
    cases o with
    | mul => exact Dims.mul_keys h1 (dm_mul_some hm).1
    | div => exact Dims.div_keys h1 (dm_div_some hm).1
theorem Factor.eval_keys (e : Factor (DM E M) E) (hl : ∀ d ∈ e.vals, (d.dims.map Prod.fst).Nodup) {r : DM E M} (h : e.eval = some r) :
    (r.dims.map Prod.fst).Nodup := by
  match e with
  | .value v => simp only [Factor.eval, Option.some.injEq] at h; subst h; exact hl v (by simp [Factor.vals])
  | .power v p =>
    simp only [Factor.eval] at h
    rw [Dims.pow_keys (dm_pow_some h).1]
    exact hl v (by simp [Factor.vals])
  | .paren e => exact Expr.eval_keys e hl (by simpa [Factor.eval] using h)
end

theorem Accepted.keys (h : Accepted u defs res) {x : Str} (hx : Grounded u.definitions x) :
    ∀ r, res.get x = some r → (r.dimensions.dims.map Prod.fst).Nodup := by
  induction hx with
  | intro x rs hx _ ih =>
    intro r hr
    rw [← itemDefs_allItems] at hx
    obtain ⟨i, hi, rfl, rfl⟩ := mem_itemDefs.1 hx
    obtain ⟨d, g, e⟩ := h.solution.eqn i hi
    rw [g] at hr
    injection hr with hr
    subst hr
    refine Expr.eval_keys _ (fun dm hdm => ?_) (resolveDimensions_eval e)
    rw [Expr.vals_map, List.mem_map] at hdm
    obtain ⟨a, ha, rfl⟩ := hdm
    cases a with
    | concrete c => exact allItems_concreteOk u i hi c ha
    | other y =>
      simp only [leafD]
      cases hg : res.get y with
      | none => simp
      | some r => exact ih y (mem_refs.2 ha) r hg

theorem Accepted.valueOf_keys (h : Accepted u defs res) {x : Str} (hx : defs.HasUnit x) : ((defs.valueOf x).dims.map Prod.fst).Nodup := by
  obtain ⟨r, hr, he, _⟩ := h.valueOf hx
  obtain ⟨hm, hid⟩ := h.solution.only _ _ hr
  rw [← he]
  exact h.keys (h.grounded x (mem_names.2 ⟨_, hm, hid⟩)) r hr

theorem Grown.trans {defs₁ defs₂ defs₃ : Defs E M} {ds ds' us us' cs cs'} (h : Grown defs₁ defs₂ ds us cs) (h' : Grown defs₂ defs₃ ds' us' cs') :
    Grown defs₁ defs₃ (ds ++ ds') (us ++ us') (cs ++ cs') :=
  ⟨fun D => by rw [h'.dimensions, h.dimensions, List.mem_append, or_assoc], fun D => by rw [h'.units, h.units, List.mem_append, or_assoc],
    fun D => by rw [h'.constants, h.constants, List.mem_append, or_assoc], h'.quantityType.trans h.quantityType,
    h'.dimensionType.trans h.dimensionType⟩

theorem Accepted.units_names (h : Accepted u defs res) {x : UnitEntry E M} (hx : x ∈ u.units) : defs.HasUnit x.name := by
  obtain ⟨dm, _, _, hU⟩ := h.unit_val hx
  exact .inl ⟨_, hU, rfl⟩

/-- Adding the prefixed and aliased versions of a unit that is there already. -/
theorem Accepted.add_generated (h : Accepted u defs res) {U : UnitDef E M} (hU : U ∈ defs.units) (l : List (UnitEntry E M))
    (mag : UnitEntry E M → M)
    (generated : ∀ x ∈ l, x.definition = .expression (.binary (.value (.value (.concrete (mag x)))) .mul (.value (.other U.name))))
    (fresh : ∀ x ∈ l, x.name ∉ u.names) (nodup : (l.map UnitEntry.name).Nodup)
    (symbol : ∀ x ∈ l, ∀ s, x.symbol = some s → ∀ y ∈ u.units, y.symbol ≠ some s) (symbols : (l.filterMap UnitEntry.symbol).Nodup)
    (annotation : ∀ x ∈ l, ∀ a, x.annotation = some a → ∃ D ∈ defs.dimensions, D.name = a ∧ D.dims.eq U.dims = true) :
    ∃ defs' res', Accepted { u with units := u.units ++ l } defs' res' ∧
      Grown defs defs' [] (l.map fun x => ⟨x.name, U.dims, MagOps.mul E (mag x) U.mag, x.symbol, false⟩) [] := by
  induction l generalizing u defs res with
  | nil => exact ⟨defs, res, by simpa using h, ⟨by simp, by simp, by simp, rfl, rfl⟩⟩
  | cons x l ih =>
    have hval : defs.valueOf U.name = ⟨U.dims, U.mag⟩ := by
      unfold Defs.valueOf
      rw [find?_of_nodup h.unit_nodup hU]
    have hk := h.valueOf_keys (x := U.name) (.inl ⟨U, hU, rfl⟩)
    rw [hval] at hk
    have hdef := generated x (by simp)
    have hv : (Expr.map defs.atom (.binary (.value (.value (.concrete (mag x)))) .mul (.value (.other U.name)) : Expr (Atom M) E)).eval =
        some ⟨U.dims, MagOps.mul E (mag x) U.mag⟩ := by
      show (do return (⟨← Dims.mul [] (defs.valueOf U.name).dims, MagOps.mul E (mag x) (defs.valueOf U.name).mag⟩ : DM E M)) = _
      rw [hval, Dims.mul_disjoint (by simpa using hk)]
      rfl
    obtain ⟨defs1, res1, h1, g1⟩ := h.add_unit x (fresh x (by simp)) hdef
      (fun y hy => by
        simp only [Expr.idents, Factor.idents, List.nil_append, List.mem_singleton] at hy
        exact .inl ⟨U, hU, hy.symm⟩) hv (symbol x (by simp)) (annotation x (by simp))
    have hnames : ∀ y, y ∈ ({ u with units := u.units ++ [x] } : UnresolvedDefs E M).names ↔ y ∈ u.names ∨ y = x.name := by
      intro y
      simp only [Unresolved.names, List.mem_append, List.map_append, List.map_cons, List.map_nil, List.mem_singleton]
      tauto
    rw [List.map_cons, List.nodup_cons] at nodup
    obtain ⟨defs2, res2, h2, g2⟩ := ih h1 ((g1.units U).2 (.inl hU)) (fun y hy => generated y (by simp [hy]))
      (fun y hy hn => by
        rcases (hnames y.name).1 hn with hn | hn
        · exact fresh y (by simp [hy]) hn
        · exact nodup.1 (List.mem_map.2 ⟨y, hy, hn⟩)) nodup.2
      (fun y hy s hs z hz => by
        rcases List.mem_append.1 hz with hz | hz
        · exact symbol y (by simp [hy]) s hs z hz
        · simp only [List.mem_singleton] at hz
          subst hz
          intro hz
          rw [List.filterMap_cons, hz] at symbols
          exact (List.nodup_cons.1 symbols).1 (List.mem_filterMap.2 ⟨y, hy, hs⟩))
      (by
        rw [List.filterMap_cons] at symbols
        split at symbols
        · exact symbols
        · exact (List.nodup_cons.1 symbols).2)
      (fun y hy a ha => by
        obtain ⟨D, hD, h⟩ := annotation y (by simp [hy]) a ha
        exact ⟨D, (g1.dimensions D).2 (.inl hD), h⟩)
    refine ⟨defs2, res2, by simpa using h2, ?_⟩
    have := g1.trans g2
    simpa [UnitEntry.toDef, hdef] using this

/-- Is it a base unit? -/
def UnitTemplate.isBase (v : UnitTemplate E M) : Bool :=
  match v.definition with
  | .base _ => true
  | .expression _ => false

/-- The unit that a statement makes with a prefix (or none) and an alias (or none), if its exponents are `ds` and its factor is `mag`. Only
the unit itself can be a base unit. -/
def UnitTemplate.made (factor : Prefix → M) (v : UnitTemplate E M) (ds : Dims E) (mag : M) : Option Prefix → Option Str → UnitDef E M
  | none, none => ⟨v.name, ds, mag, v.symbol, v.isBase⟩
  | some p, none => ⟨p.name ++ v.name, ds, MagOps.mul E (factor p) mag, v.symbol.map (p.short ++ ·), false⟩
  | none, some a => ⟨a, ds, MagOps.mul E (MagOps.one E) mag, none, false⟩
  | some p, some a => ⟨p.name ++ a, ds, MagOps.mul E (factor p) mag, none, false⟩

/-- All units that a statement makes: with every prefix and none, with every alias and none. -/
def UnitTemplate.madeUnits (factor : Prefix → M) (v : UnitTemplate E M) (ds : Dims E) (mag : M) : List (UnitDef E M) :=
  (none :: v.prefixes.map some).flatMap fun pre => (none :: v.aliases.map some).map fun al => v.made factor ds mag pre al

theorem UnitTemplate.mem_madeUnits {factor : Prefix → M} {v : UnitTemplate E M} {ds : Dims E} {mag : M} {U : UnitDef E M} :
    U ∈ v.madeUnits factor ds mag ↔ ∃ pre al, (pre = none ∨ ∃ p ∈ v.prefixes, pre = some p) ∧
      (al = none ∨ ∃ a ∈ v.aliases, al = some a) ∧ U = v.made factor ds mag pre al := by
  unfold UnitTemplate.madeUnits
  simp only [List.mem_flatMap, List.mem_cons, List.mem_map, eq_comm (a := U), eq_comm (b := (_ : Option Prefix)),
    eq_comm (b := (_ : Option Str))]
  constructor
  · rintro ⟨pre, hp, al, ha, rfl⟩
    exact ⟨pre, al, by simpa [eq_comm] using hp, by simpa [eq_comm] using ha, rfl⟩
  · rintro ⟨pre, al, hp, ha, rfl⟩
    exact ⟨pre, by simpa [eq_comm] using hp, al, by simpa [eq_comm] using ha, rfl⟩

/-- The literal factor of a generated unit. -/
def UnitEntry.literal (x : UnitEntry E M) : M :=
  match x.definition with
  | .expression (.binary (.value (.value (.concrete m))) _ _) => m
  | _ => MagOps.one E

/-- Adding a unit statement, once its unit proper is added. -/
theorem Accepted.add_template (factor : Prefix → M) (t : UnresolvedTemplates E M) (v : UnitTemplate E M)
    (h : Accepted (UnresolvedTemplates.expand (MagOps.one E) factor t) defs res) (ds : Dims E) (mag : M)
    (fresh : ∀ p ∈ v.promised, p.1 ∉ (UnresolvedTemplates.expand (MagOps.one E) factor t).names) (nodup : (v.promised.map Prod.fst).Nodup)
    (symbol : ∀ p ∈ v.promised, ∀ s, p.2 = some s → ∀ U ∈ defs.units, U.symbol ≠ some s) (symbols : (v.promised.filterMap Prod.snd).Nodup)
    (annotation : ∀ a, v.annotation = some a → ∃ D ∈ defs.dimensions, D.name = a ∧ D.dims.eq ds = true)
    (first : v.name ∉ (UnresolvedTemplates.expand (MagOps.one E) factor t).names →
      (∀ s, v.symbol = some s → ∀ x ∈ (UnresolvedTemplates.expand (MagOps.one E) factor t).units, x.symbol ≠ some s) →
      ∃ defs1 res1, Accepted { UnresolvedTemplates.expand (MagOps.one E) factor t with
        units := (UnresolvedTemplates.expand (MagOps.one E) factor t).units ++ [⟨v.name, v.symbol, v.annotation, v.definition, none⟩] } defs1 res1 ∧
      Grown defs defs1 [] [⟨v.name, ds, mag, v.symbol, v.isBase⟩] []) :
    ∃ defs', runUnitSystem factor { t with units := t.units ++ [v] } = some (defs', []) ∧ Grown defs defs' [] (v.madeUnits factor ds mag) [] := by
  let x₀ : UnitEntry E M := ⟨v.name, v.symbol, v.annotation, v.definition, none⟩
  obtain ⟨l₁, l₂, hl⟩ := List.append_of_mem (v.self_mem_expand (one := MagOps.one E) (factor := factor))
  have hperm : (v.expand (MagOps.one E) factor).Perm (x₀ :: (l₁ ++ l₂)) := by rw [hl]; exact List.perm_middle
  have hprom := expand_promised (MagOps.one E) factor v
  have hnames : ((x₀ :: (l₁ ++ l₂)).map UnitEntry.name).Nodup := by
    have h1 := (hprom.map Prod.fst).nodup_iff.2 nodup
    rw [List.map_map] at h1
    exact (hperm.map UnitEntry.name).nodup_iff.1 h1
  have hsyms : ((x₀ :: (l₁ ++ l₂)).filterMap UnitEntry.symbol).Nodup := by
    have h1 := (hprom.filterMap Prod.snd).nodup_iff.2 symbols
    rw [List.filterMap_map] at h1
    exact (hperm.filterMap UnitEntry.symbol).nodup_iff.1 h1
  have hmem : ∀ x, x ∈ x₀ :: (l₁ ++ l₂) ↔ x ∈ v.expand (MagOps.one E) factor := fun x => (hperm.mem_iff).symm
  have hx : ∀ x ∈ v.expand (MagOps.one E) factor, (x.name, x.symbol) ∈ v.promised := fun x hx =>
    hprom.mem_iff.1 (List.mem_map.2 ⟨x, hx, rfl⟩)
  have hrest : ∀ x ∈ l₁ ++ l₂, ∃ pre al, (pre = none ∨ ∃ p ∈ v.prefixes, pre = some p) ∧ (al = none ∨ ∃ a ∈ v.aliases, al = some a) ∧
      x = v.expandOne (MagOps.one E) factor pre al ∧ (al.isNone && pre.isNone) = false := by
    intro x hxl
    obtain ⟨pre, al, h1, h2, rfl⟩ := UnitTemplate.mem_expand.1 ((hmem x).1 (List.mem_cons_of_mem _ hxl))
    refine ⟨pre, al, h1, h2, rfl, ?_⟩
    rw [List.map_cons, List.nodup_cons] at hnames
    cases pre with
    | some p => simp
    | none =>
      cases al with
      | some a => simp
      | none => exact absurd (List.mem_map.2 ⟨_, hxl, rfl⟩) hnames.1
  have hsym0 : ∀ x ∈ v.expand (MagOps.one E) factor, ∀ s, x.symbol = some s →
      ∀ y ∈ (UnresolvedTemplates.expand (MagOps.one E) factor t).units, y.symbol ≠ some s := by
    intro x hx' s hs y hy hys
    obtain ⟨dm, _, _, hU⟩ := h.unit_val hy
    exact symbol _ (hx x hx') s hs _ hU hys
  obtain ⟨defs1, res1, h1, g1⟩ := first (fresh _ (hx x₀ ((hmem x₀).1 (by simp)))) (hsym0 x₀ ((hmem x₀).1 (by simp)))
  have hnames1 : ∀ y, y ∈ ({ UnresolvedTemplates.expand (MagOps.one E) factor t with
      units := (UnresolvedTemplates.expand (MagOps.one E) factor t).units ++ [x₀] } : UnresolvedDefs E M).names ↔
      y ∈ (UnresolvedTemplates.expand (MagOps.one E) factor t).names ∨ y = v.name := by
    intro y
    simp only [Unresolved.names, List.mem_append, List.map_append, List.map_cons, List.map_nil, List.mem_singleton, x₀]
    tauto
  rw [List.map_cons, List.nodup_cons] at hnames
  obtain ⟨defs2, res2, h2, g2⟩ := h1.add_generated (U := ⟨v.name, ds, mag, v.symbol, v.isBase⟩) ((g1.units _).2 (.inr (by simp)))
    (l₁ ++ l₂) UnitEntry.literal
    (fun x hxl => by
      obtain ⟨pre, al, _, _, rfl, hn⟩ := hrest x hxl
      simp only [UnitTemplate.expandOne, UnitTemplate.getDefinition, hn, UnitEntry.literal, Bool.false_eq_true, if_false])
    (fun x hxl hn => by
      rcases (hnames1 _).1 hn with hn | hn
      · exact fresh _ (hx x ((hmem x).1 (List.mem_cons_of_mem _ hxl))) hn
      · exact hnames.1 (List.mem_map.2 ⟨x, hxl, hn⟩))
    hnames.2
    (fun x hxl s hs z hz => by
      rcases List.mem_append.1 hz with hz | hz
      · exact hsym0 x ((hmem x).1 (List.mem_cons_of_mem _ hxl)) s hs z hz
      · simp only [List.mem_singleton] at hz
        subst hz
        intro hz
        rw [List.filterMap_cons, hz] at hsyms
        exact (List.nodup_cons.1 hsyms).1 (List.mem_filterMap.2 ⟨x, hxl, hs⟩))
    (by
      rw [List.filterMap_cons] at hsyms
      split at hsyms
      · exact hsyms
      · exact (List.nodup_cons.1 hsyms).2)
    (fun x hxl a ha => by
      obtain ⟨pre, al, _, _, rfl, hn⟩ := hrest x hxl
      obtain ⟨D, hD, h⟩ := annotation a ha
      exact ⟨D, (g1.dimensions D).2 (.inl hD), h⟩)
  have hre : Reordered ({ UnresolvedTemplates.expand (MagOps.one E) factor t with
      units := (UnresolvedTemplates.expand (MagOps.one E) factor t).units ++ [x₀] ++ (l₁ ++ l₂) } : UnresolvedDefs E M)
      (UnresolvedTemplates.expand (MagOps.one E) factor { t with units := t.units ++ [v] }) := by
    refine ⟨.refl _, .refl _, .refl _, ?_, .refl _⟩
    simp only [UnresolvedTemplates.expand, List.flatMap_append, List.flatMap_cons, List.flatMap_nil, List.append_nil, List.append_assoc]
    exact (hperm.symm).append_left _
  refine ⟨_, (accepted_iff (expand_autoOk _ _ _)).2 ⟨res2, hre.accepted h2⟩, ?_⟩
  have g := g1.trans g2
  refine ⟨fun D => by simpa using g.dimensions D, fun U => ?_, fun C => by simpa using g.constants C, g.quantityType, g.dimensionType⟩
  refine (g.units U).trans (or_congr Iff.rfl ?_)
  rw [UnitTemplate.mem_madeUnits]
  constructor
  · intro hU
    rcases List.mem_append.1 hU with hU | hU
    · simp only [List.mem_singleton] at hU
      refine ⟨none, none, .inl rfl, .inl rfl, ?_⟩
      rw [hU]
      simp [UnitTemplate.made]
    · obtain ⟨x, hxl, rfl⟩ := List.mem_map.1 hU
      obtain ⟨pre, al, hp, ha, rfl, hn⟩ := hrest x hxl
      refine ⟨pre, al, hp, ha, ?_⟩
      cases pre <;> cases al <;> simp_all [UnitTemplate.expandOne, UnitTemplate.made, UnitTemplate.formatName, UnitTemplate.formatSymbol,
        UnitTemplate.getDefinition, UnitEntry.literal]
  · rintro ⟨pre, al, hp, ha, rfl⟩
    by_cases hn : (al.isNone && pre.isNone) = true
    · cases pre <;> cases al <;> simp at hn
      simp [UnitTemplate.made]
    · have hm := (hmem _).2 (UnitTemplate.mem_expand.2 ⟨pre, al, hp, ha, rfl⟩)
      rcases List.mem_cons.1 hm with he | hm
      · have := congrArg UnitEntry.autogeneratedFrom he
        cases pre <;> cases al <;> simp [UnitTemplate.expandOne, x₀] at this hn
      · refine List.mem_append.2 (.inr (List.mem_map.2 ⟨_, hm, ?_⟩))
        cases pre <;> cases al <;> simp_all [UnitTemplate.expandOne, UnitTemplate.made, UnitTemplate.formatName, UnitTemplate.formatSymbol,
          UnitTemplate.getDefinition, UnitEntry.literal, x₀]

/-- **C52.** A new unit statement is accepted with all its prefixes and aliases, its units have the exponents and the factors of its
definition (times the prefix), and nothing else changes. Conditions: the names and symbols it makes are different from each other and not
taken; its definition mentions only units and constants of the system; the exponents do not overflow; and if it is annotated with a dimension,
this is its dimension (by the comparison that diman makes, see C14). -/
theorem C52_add_unit (factor : Prefix → M) (t : UnresolvedTemplates E M) (defs : Defs E M) (accepted : runUnitSystem factor t = some (defs, []))
    (v : UnitTemplate E M) {e : Expr (Atom M) E} (definition : v.definition = .expression e)
    (fresh : ∀ p ∈ v.promised, p.1 ∉ (UnresolvedTemplates.expand (MagOps.one E) factor t).names) (nodup : (v.promised.map Prod.fst).Nodup)
    (symbol : ∀ p ∈ v.promised, ∀ s, p.2 = some s → ∀ U ∈ defs.units, U.symbol ≠ some s) (symbols : (v.promised.filterMap Prod.snd).Nodup)
    (known : ∀ x ∈ e.idents, defs.HasUnit x) {ds : Dims E} (dims : e.dimsIn defs.unitDims = some ds)
    (annotation : ∀ a, v.annotation = some a → ∃ D ∈ defs.dimensions, D.name = a ∧ D.dims.eq ds = true) :
    ∃ defs', runUnitSystem factor { t with units := t.units ++ [v] } = some (defs', []) ∧
      Grown defs defs' [] (v.madeUnits factor ds (e.specMag (Atom.mag defs.magOf))) [] := by
  obtain ⟨res, h⟩ := accepted_of_run accepted
  refine h.add_template factor t v ds _ fresh nodup symbol symbols annotation fun hn hs => ?_
  obtain ⟨defs1, res1, h1, g1⟩ := h.add_unit ⟨v.name, v.symbol, v.annotation, v.definition, none⟩ hn (e := e) definition known
    (defs.eval_atoms dims) hs annotation
  refine ⟨defs1, res1, h1, ?_⟩
  simpa [UnitEntry.toDef, UnitTemplate.isBase, definition] using g1

/-! ### Dimensions and base units -/

/-- Exponents of a dimension's right-hand side. -/
def DimensionEntry.dimsIn (ρ : Str → Dims E) (d : DimensionEntry E) : Option (Dims E) :=
  match d.rhs with
  | .base _ => some [(toSnakecase d.name, Exponent.one)]
  | .expression e => e.dimsIn ρ

theorem Accepted.eval_dimension (h : Accepted u defs res) (d : DimensionEntry E)
    (known : ∀ x ∈ d.mentions, ∃ D ∈ defs.dimensions, D.name = x) {ds : Dims E} (dims : d.dimsIn defs.dimsOf = some ds) :
    ∃ dm : DM E M, resolveDimensions res (.ofDimension d) = some dm ∧ dm.dims = ds := by
  unfold DimensionEntry.mentions at known
  unfold DimensionEntry.dimsIn at dims
  cases hd : d.rhs with
  | base b =>
    rw [hd] at dims
    simp only [Option.some.injEq] at dims
    refine ⟨DM.dimensions [(toSnakecase d.name, Exponent.one)], ?_, dims⟩
    rw [resolveDimensions_def]
    simp only [Item.ofDimension, hd]
    rfl
  | expression e =>
    rw [hd] at dims known
    simp only at dims known
    rw [resolveDimensions_def]
    have hex : (Item.ofDimension (M := M) d).expr = e.map (Atom.mapConcrete fun _ => DM.dimensions []) := by simp [Item.ofDimension, hd]
    have hm : (e.map (Atom.mapConcrete fun _ => (DM.dimensions [] : DM E M))).mapM (leafOf res) =
        some ((e.map (Atom.mapConcrete fun _ => DM.dimensions [])).map (leafD res)) := by
      apply Expr.mapM_of_forall
      intro a ha
      rw [Expr.vals_map, List.mem_map] at ha
      obtain ⟨b, hb, rfl⟩ := ha
      cases b with
      | concrete c => rfl
      | other x =>
        obtain ⟨r, hr, _⟩ := h.dimsOf (known x (by rw [Expr.idents_eq_vals, List.mem_filterMap]; exact ⟨_, hb, rfl⟩))
        simp [Atom.mapConcrete, leafOf, leafD, hr]
    rw [hex, hm, Expr.map_map]
    have := Expr.eval_dimsIn (M := M) defs.dimsOf (leafD res ∘ Atom.mapConcrete fun _ => DM.dimensions []) (fun _ => rfl) e
      (fun x hx => by
        obtain ⟨r, hr, he, _⟩ := h.dimsOf (known x hx)
        simp [Atom.mapConcrete, leafD, hr, he])
    rw [dims, Option.map_eq_some_iff] at this
    exact this

/-- **C52.** A new dimension is accepted, has the exponents of its definition (a base dimension: exponent one in itself), and nothing else
changes. Conditions: its name is not taken; its definition mentions only dimensions of the system; the exponents do not overflow. -/
theorem C52_add_dimension (factor : Prefix → M) (t : UnresolvedTemplates E M) (defs : Defs E M) (accepted : runUnitSystem factor t = some (defs, []))
    (d : DimensionEntry E) (fresh : d.name ∉ (UnresolvedTemplates.expand (MagOps.one E) factor t).names)
    (known : ∀ x ∈ d.mentions, ∃ D ∈ defs.dimensions, D.name = x) {ds : Dims E} (dims : d.dimsIn defs.dimsOf = some ds) :
    ∃ defs', runUnitSystem factor { t with dimensions := t.dimensions ++ [d] } = some (defs', []) ∧ Grown defs defs' [⟨d.name, ds⟩] [] [] ∧
      defs'.baseDimensions = defs.baseDimensions ++ (if d.isBase then [toSnakecase d.name] else []) := by
  obtain ⟨res, h⟩ := accepted_of_run accepted
  generalize hu : UnresolvedTemplates.expand (MagOps.one E) factor t = u at *
  obtain ⟨dm, val, rfl⟩ := h.eval_dimension d known dims
  let u' : UnresolvedDefs E M := { u with dimensions := u.dimensions ++ [d] }
  have items : (allItems u').Perm (.ofDimension d :: allItems u) := by
    simp only [u', allItems, List.map_append, List.map_cons, List.map_nil, List.append_assoc, List.singleton_append]
    exact List.perm_middle
  have kd : ∀ x ∈ (Item.ofDimension (M := M) d).refs, ∃ D ∈ defs.dimensions, D.name = x := fun x hx =>
    known x (by rwa [ofDimension_refs] at hx)
  have refs : ∀ x ∈ (Item.ofDimension (M := M) d).refs, x ∈ u.names := fun x hx => by
    obtain ⟨r, hr, _⟩ := h.dimsOf (kd x hx)
    obtain ⟨hm, hid⟩ := h.solution.only _ _ hr
    exact mem_names.2 ⟨_, hm, hid⟩
  obtain ⟨hS, h1, h2, h3, h4, h5⟩ := h.add_item (u' := u') (i := .ofDimension d) items fresh refs
    (fun j hj hx => by
      obtain ⟨r, hr, _, hk⟩ := h.dimsOf (kd _ hx)
      obtain ⟨d', g, _⟩ := h.solution.eqn j hj
      rw [g] at hr
      injection hr with hr
      subst hr
      change Kind.allows .dimension _ = true
      simp only at hk
      rw [hk]
      rfl) val (fun a ha => by simp [Item.annotation, Item.ofDimension] at ha)
  obtain ⟨ds, gd⟩ := Option.isSome_iff_exists.1 (getDimensions_isSome (res.insert (Item.ofDimension (M := M) d).ident ⟨.ofDimension d, dm⟩))
  obtain ⟨us, gu⟩ := Option.isSome_iff_exists.1 (getUnits_isSome (res.insert (Item.ofDimension (M := M) d).ident ⟨.ofDimension d, dm⟩))
  obtain ⟨cs, gc⟩ := Option.isSome_iff_exists.1 (getConstants_isSome (res.insert (Item.ofDimension (M := M) d).ident ⟨.ofDimension d, dm⟩))
  obtain ⟨f1, f2, f3⟩ := h.finish (i := .ofDimension d) fresh hS
    (fun d' => by
      simp only [u', List.mem_append, List.mem_singleton]
      exact or_congr Iff.rfl ⟨fun e => by rw [e], fun e => (ofDimension_inj (M := M) e).symm⟩)
    (fun d' => by simp [u', ofUnit_ne_dimension.symm]) (fun d' => by simp [u', ofConstant_ne_dimension.symm]) gd gu gc
  have hacc : Accepted u' ⟨defs.dimensionType, defs.quantityType, ds, us, cs, baseDimensions u'.dimensions⟩
      (res.insert (Item.ofDimension (M := M) d).ident ⟨.ofDimension d, dm⟩) := by
    refine ⟨h.quantity, h.dimension, ⟨fun x hx => ?_, h.base_units.2⟩, h.symbols, rfl, h1, h2, h3, h4, hS, h5, gd, gu, gc, ?_⟩
    · obtain ⟨e, he, hb⟩ := h.base_units.1 x hx
      exact ⟨e, by simp [u', he], hb⟩
    · rw [checkBaseSymbols_nil]
      intro U hU
      rcases (f2 U).1 hU with hU | ⟨d', hd, _⟩
      · exact checkBaseSymbols_nil.1 h.base_symbols U hU
      · exact absurd hd.symm ofUnit_ne_dimension
  have hex : UnresolvedTemplates.expand (MagOps.one E) factor { t with dimensions := t.dimensions ++ [d] } = u' := by
    show _ = ({ u with dimensions := u.dimensions ++ [d] } : UnresolvedDefs E M)
    rw [← hu]
    rfl
  refine ⟨⟨defs.dimensionType, defs.quantityType, ds, us, cs, baseDimensions u'.dimensions⟩, ?_,
    ⟨fun D => ?_, fun D => ?_, fun D => ?_, rfl, rfl⟩, ?_⟩
  rotate_left
  · rw [f1]
    refine or_congr Iff.rfl ⟨?_, ?_⟩
    · rintro ⟨d', hd, rfl⟩
      rw [ofDimension_inj hd]
      simp
    · intro hD
      simp only [List.mem_singleton] at hD
      exact ⟨d, rfl, hD⟩
  · rw [f2]
    simp [ofUnit_ne_dimension.symm]
  · rw [f3]
    simp [ofConstant_ne_dimension.symm]
  · rw [h.base_dims]
    simp only [u', baseDimensions, List.filter_append, List.map_append]
    cases hb : d.isBase <;> simp [hb]
  · show resolveDefs (UnresolvedTemplates.expand (MagOps.one E) factor { t with dimensions := t.dimensions ++ [d] }) = _
    rw [hex]
    exact (accepted_iff (hex ▸ expand_autoOk _ _ _)).2 ⟨_, hacc⟩

/-- **C52.** A new base unit statement is accepted with all its prefixes and aliases; the unit has exponent one in its dimension and the factor
one. Conditions: the names and symbols it makes are different from each other and not taken; it has a symbol; its dimension is a base dimension of
the system that has no base unit yet; and if it is annotated, then with its dimension. -/
theorem C52_add_base_unit (factor : Prefix → M) (t : UnresolvedTemplates E M) (defs : Defs E M) (accepted : runUnitSystem factor t = some (defs, []))
    (v : UnitTemplate E M) {d : Str} (definition : v.definition = .base d) (has_symbol : v.symbol.isSome)
    (fresh : ∀ p ∈ v.promised, p.1 ∉ (UnresolvedTemplates.expand (MagOps.one E) factor t).names) (nodup : (v.promised.map Prod.fst).Nodup)
    (symbol : ∀ p ∈ v.promised, ∀ s, p.2 = some s → ∀ U ∈ defs.units, U.symbol ≠ some s) (symbols : (v.promised.filterMap Prod.snd).Nodup)
    (base : ∃ e ∈ t.dimensions, e.name = d ∧ e.rhs = .base ()) (only : ∀ w ∈ t.units, w.definition ≠ .base d)
    (annotation : ∀ a, v.annotation = some a → ∃ D ∈ defs.dimensions, D.name = a ∧ D.dims.eq [(toSnakecase d, Exponent.one)] = true) :
    ∃ defs', runUnitSystem factor { t with units := t.units ++ [v] } = some (defs', []) ∧
      Grown defs defs' [] (v.madeUnits factor [(toSnakecase d, Exponent.one)] (MagOps.one E)) [] := by
  obtain ⟨res, h⟩ := accepted_of_run accepted
  refine h.add_template factor t v _ _ fresh nodup symbol symbols annotation fun hn hs => ?_
  obtain ⟨e, he, rfl, hbase⟩ := base
  have only' : e.name ∉ baseOf (UnresolvedTemplates.expand (MagOps.one E) factor t).units := by
    intro hb
    simp only [baseOf, List.mem_filterMap] at hb
    obtain ⟨x, hx, hxd⟩ := hb
    split at hxd
    · simp at hxd
    · rename_i hauto
      simp only [UnresolvedTemplates.expand, List.mem_flatMap] at hx
      obtain ⟨w, hw, hx⟩ := hx
      obtain ⟨pre, al, _, _, rfl⟩ := UnitTemplate.mem_expand.1 hx
      rw [UnitTemplate.expandOne_auto] at hauto
      have hna : pre = none ∧ al = none := by cases pre <;> cases al <;> simp at hauto ⊢
      obtain ⟨rfl, rfl⟩ := hna
      simp only [UnitTemplate.expandOne, UnitTemplate.getDefinition, Option.isNone_none, Bool.and_self, if_true] at hxd
      cases hdef : w.definition with
      | base b => rw [hdef] at hxd; simp only [Option.some.injEq] at hxd; exact only w hw (by rw [hdef, hxd])
      | expression ex => rw [hdef] at hxd; simp at hxd
  generalize hu : UnresolvedTemplates.expand (MagOps.one E) factor t = u at *
  have he' : e ∈ u.dimensions := by rw [← hu]; exact he
  let c : UnitEntry E M := ⟨v.name, v.symbol, v.annotation, v.definition, none⟩
  let dm : DM E M := DM.dimensions [(toSnakecase e.name, Exponent.one)]
  have hD : res.get e.name = some ⟨.ofDimension e, dm⟩ := by
    obtain ⟨dm', g, hv, _⟩ := h.dim_val he'
    rw [g]
    have hex : (Item.ofDimension (M := M) e).expr = .value (.value (.concrete dm)) := by simp [Item.ofDimension, hbase, dm]
    rw [resolveDimensions_def, hex] at hv
    have : dm = dm' := by simpa [Expr.mapM, Factor.mapM, leafOf, Expr.eval, Factor.eval] using hv
    rw [this]
  have hexpr : (Item.ofUnit c).expr = .value (.value (.other e.name)) := by simp [Item.ofUnit, c, definition]
  have val : resolveDimensions res (.ofUnit c) = some dm := by
    rw [resolveDimensions_def, hexpr]
    simp [Expr.mapM, Factor.mapM, leafOf, hD, Expr.eval, Factor.eval]
  let u' : UnresolvedDefs E M := { u with units := u.units ++ [c] }
  have items : (allItems u').Perm (.ofUnit c :: allItems u) := by
    simp only [u', allItems, List.map_append, List.map_cons, List.map_nil, ← List.append_assoc]
    refine ((List.perm_append_singleton (Item.ofUnit c) _).append_right _).trans ?_
    simp
  have hm : (Item.ofUnit c).refs = [e.name] := by rw [ofUnit_refs]; simp [UnitEntry.mentions, c, definition]
  obtain ⟨hS, h1, h2, h3, h4, h5⟩ := h.add_item (u' := u') (i := .ofUnit c) items hn
    (fun x hx => by
      rw [hm, List.mem_singleton] at hx
      subst hx
      exact mem_names.2 ⟨.ofDimension e, mem_allItems.2 (.inl ⟨e, he', rfl⟩), rfl⟩)
    (fun j hj hx => by
      rw [hm, List.mem_singleton] at hx
      obtain ⟨d', g, _⟩ := h.solution.eqn j hj
      rw [hx, hD] at g
      simp only [Option.some.injEq, ResolvedItem.mk.injEq] at g
      rw [ofUnit_kind_base (d := e.name) (by exact definition), ← g.1]
      rfl) val (fun a ha => h.annotated_of (annotation a ha))
  obtain ⟨ds, gd⟩ := Option.isSome_iff_exists.1 (getDimensions_isSome (res.insert (Item.ofUnit c).ident ⟨.ofUnit c, dm⟩))
  obtain ⟨us, gu⟩ := Option.isSome_iff_exists.1 (getUnits_isSome (res.insert (Item.ofUnit c).ident ⟨.ofUnit c, dm⟩))
  obtain ⟨cs, gc⟩ := Option.isSome_iff_exists.1 (getConstants_isSome (res.insert (Item.ofUnit c).ident ⟨.ofUnit c, dm⟩))
  obtain ⟨f1, f2, f3⟩ := h.finish (u' := u') (i := .ofUnit c) hn hS
    (fun d => by simp [u', ofUnit_ne_dimension])
    (fun d => by
      simp only [u', List.mem_append, List.mem_singleton]
      exact or_congr Iff.rfl ⟨fun e => by rw [e], fun e => (ofUnit_inj e).symm⟩)
    (fun d => by simp [u', ofUnit_ne_constant]) gd gu gc
  have hb : baseOf (u.units ++ [c]) = baseOf u.units ++ [e.name] := by
    simp [baseOf, List.filterMap_append, c, definition]
  refine ⟨⟨defs.dimensionType, defs.quantityType, ds, us, cs, baseDimensions u.dimensions⟩, _,
    ⟨h.quantity, h.dimension, ?_, ?_, rfl, h1, h2, h3, h4, hS, h5, gd, gu, gc, ?_⟩, ⟨?_, ?_, ?_, rfl, rfl⟩⟩
  · change (∀ d ∈ baseOf (u.units ++ [c]), _) ∧ (baseOf (u.units ++ [c])).Nodup
    rw [hb]
    refine ⟨fun d hd => ?_, ?_⟩
    · rcases List.mem_append.1 hd with hd | hd
      · exact h.base_units.1 d hd
      · simp only [List.mem_singleton] at hd
        exact ⟨e, he', by simp [DimensionEntry.isBase, hbase], hd.symm⟩
    · rw [List.nodup_append]
      refine ⟨h.base_units.2, by simp, ?_⟩
      intro a ha b hb hab
      simp only [List.mem_singleton] at hb
      exact only' (hb ▸ hab ▸ ha)
  · change ((u.units ++ [c]).filterMap UnitEntry.symbol).Nodup
    rw [List.filterMap_append]
    obtain ⟨s, hsy⟩ := Option.isSome_iff_exists.1 has_symbol
    have hcs : c.symbol = some s := hsy
    simp only [List.filterMap_cons, hcs, List.filterMap_nil]
    rw [List.nodup_append]
    refine ⟨h.symbols, by simp, ?_⟩
    intro a ha b hb hab
    subst hab
    simp only [List.mem_singleton] at hb
    subst hb
    obtain ⟨x, hx, hxs⟩ := List.mem_filterMap.1 ha
    exact hs a hsy x hx hxs
  · rw [checkBaseSymbols_nil]
    intro U hU
    rcases (f2 U).1 hU with hU | ⟨d, hd, rfl⟩
    · exact checkBaseSymbols_nil.1 h.base_symbols U hU
    · rw [← ofUnit_inj hd]
      exact fun _ => has_symbol
  · intro D
    rw [f1]
    simp [ofUnit_ne_dimension]
  · intro D
    rw [f2]
    refine or_congr Iff.rfl ⟨?_, ?_⟩
    · rintro ⟨d, hd, rfl⟩
      rw [← ofUnit_inj hd]
      simp [UnitEntry.toDef, UnitTemplate.isBase, c, dm, DM.dimensions, definition]
    · intro hD
      simp only [List.mem_singleton] at hD
      refine ⟨c, rfl, ?_⟩
      rw [hD]
      simp [UnitEntry.toDef, UnitTemplate.isBase, c, dm, DM.dimensions, definition]
  · intro D
    rw [f3]
    simp [ofUnit_ne_constant]

end

/-! ### The hypotheses are met: the sample system can be extended in each of these ways -/
section Example
attribute [local instance] Sample.exactMag

/-- What the sample system resolves to. -/
def C52.defs : Defs Int ℚ :=
  match resolveDefsFuel Sample.sampleDefs with
  | some (d, _) => d
  | none => ⟨[], [], [], [], [], []⟩

set_option maxRecDepth 100000 in
theorem C52.accepted : runUnitSystem Sample.exactFactor Sample.sample = some (C52.defs, []) := by
  have h : (resolveDefsFuel Sample.sampleDefs).map Prod.snd = some [] := by decide +kernel
  unfold runUnitSystem
  rw [resolveDefs_eq_fuel]
  change resolveDefsFuel Sample.sampleDefs = _
  unfold C52.defs
  cases hr : resolveDefsFuel Sample.sampleDefs with
  | none => rw [hr] at h; simp at h
  | some p => rw [hr] at h; simp at h; simp [← h]

/-- `constant G: Acceleration = 9.81 * meters / seconds ^ 2` without annotation, on top of the sample system. -/
example : ∃ defs', runUnitSystem Sample.exactFactor { Sample.sample with constants := Sample.sample.constants ++
      [⟨str!"G", .binary (.binary (.value (Sample.c (981 / 100))) .mul (Sample.v (str!"meters"))) .div (Sample.pw (str!"seconds") 2), none⟩] } =
        some (defs', []) ∧
    Grown C52.defs defs' [] [] [⟨str!"G", [(str!"length", 1), (str!"time", -2)], 981 / 100⟩] := by
  have := C52_add_constant Sample.exactFactor Sample.sample C52.defs C52.accepted
    ⟨str!"G", .binary (.binary (.value (Sample.c (981 / 100))) .mul (Sample.v (str!"meters"))) .div (Sample.pw (str!"seconds") 2), none⟩
    (by decide +kernel) (by unfold Defs.HasUnit; decide +kernel) (ds := [(str!"length", 1), (str!"time", -2)]) (by decide +kernel) (by simp)
  have e : (ConstantEntry.rhs ⟨str!"G", .binary (.binary (.value (Sample.c (981 / 100))) .mul (Sample.v (str!"meters"))) .div
      (Sample.pw (str!"seconds") 2), none⟩ : Expr (Atom ℚ) Int).specMag (Atom.mag C52.defs.magOf) = 981 / 100 := by decide +kernel
  simp only at this e
  rwa [e] at this

/-- `#[prefix(kilo)] #[symbol(W)] #[alias(watt)] unit watts = joules / seconds` on top of the sample system makes four units. -/
def C52.watts : UnitTemplate Int ℚ :=
  ⟨str!"watts", some (str!"W"), [str!"watt"], [.kilo], none, .expression (.binary (.value (Sample.v (str!"joules"))) .div (Sample.v (str!"seconds")))⟩

example : ∃ defs', runUnitSystem Sample.exactFactor { Sample.sample with units := Sample.sample.units ++ [C52.watts] } = some (defs', []) ∧
    Grown C52.defs defs' []
      [⟨str!"watts", [(str!"mass", 1), (str!"length", 2), (str!"time", -3)], 1, some (str!"W"), false⟩,
       ⟨str!"watt", [(str!"mass", 1), (str!"length", 2), (str!"time", -3)], 1, none, false⟩,
       ⟨str!"kilowatts", [(str!"mass", 1), (str!"length", 2), (str!"time", -3)], 1000, some (str!"kW"), false⟩,
       ⟨str!"kilowatt", [(str!"mass", 1), (str!"length", 2), (str!"time", -3)], 1000, none, false⟩] [] := by
  have := C52_add_unit Sample.exactFactor Sample.sample C52.defs C52.accepted C52.watts rfl (by decide +kernel) (by decide +kernel)
    (by decide +kernel) (by decide +kernel) (by unfold Defs.HasUnit; decide +kernel)
    (ds := [(str!"mass", 1), (str!"length", 2), (str!"time", -3)]) (by decide +kernel) (by simp [C52.watts])
  have e : (.binary (.value (Sample.v (str!"joules"))) .div (Sample.v (str!"seconds")) : Expr (Atom ℚ) Int).specMag (Atom.mag C52.defs.magOf) = 1 := by
    decide +kernel
  rw [e] at this
  have e2 : C52.watts.madeUnits Sample.exactFactor [(str!"mass", (1 : Int)), (str!"length", 2), (str!"time", -3)] (1 : ℚ) =
      [⟨str!"watts", [(str!"mass", 1), (str!"length", 2), (str!"time", -3)], 1, some (str!"W"), false⟩,
       ⟨str!"watt", [(str!"mass", 1), (str!"length", 2), (str!"time", -3)], 1, none, false⟩,
       ⟨str!"kilowatts", [(str!"mass", 1), (str!"length", 2), (str!"time", -3)], 1000, some (str!"kW"), false⟩,
       ⟨str!"kilowatt", [(str!"mass", 1), (str!"length", 2), (str!"time", -3)], 1000, none, false⟩] := by
    norm_num [UnitTemplate.madeUnits, UnitTemplate.made, UnitTemplate.isBase, C52.watts, Prefix.name, Prefix.short, MagOps.mul, MagOps.one,
      Sample.exactFactor, Prefix.literal]
  rwa [e2] at this

/-- `dimension Acceleration = Velocity / Time` -/
example : ∃ defs', runUnitSystem Sample.exactFactor { Sample.sample with dimensions := Sample.sample.dimensions ++
      [⟨str!"Acceleration", .expression (.binary (.value (Sample.v (str!"Velocity"))) .div (Sample.v (str!"Time")))⟩] } = some (defs', []) ∧
    Grown C52.defs defs' [⟨str!"Acceleration", [(str!"length", 1), (str!"time", -2)]⟩] [] [] := by
  obtain ⟨d, h, g, _⟩ := C52_add_dimension Sample.exactFactor Sample.sample C52.defs C52.accepted
    ⟨str!"Acceleration", .expression (.binary (.value (Sample.v (str!"Velocity"))) .div (Sample.v (str!"Time")))⟩
    (by decide +kernel) (by decide +kernel) (ds := [(str!"length", 1), (str!"time", -2)]) (by decide +kernel)
  exact ⟨d, h, g⟩

/-- `dimension Current` and then `#[base(Current)] #[symbol(A)] #[prefix(milli)] unit amperes` -/
example : ∃ defs' : Defs Int ℚ, runUnitSystem Sample.exactFactor
      { Sample.sample with dimensions := Sample.sample.dimensions ++ [⟨str!"Current", .base ()⟩],
                           units := Sample.sample.units ++ [⟨str!"amperes", some (str!"A"), [], [.milli], some (str!"Current"), .base (str!"Current")⟩] } =
        some (defs', []) ∧
      (⟨str!"milliamperes", [(str!"current", 1)], 1 / 1000, some (str!"mA"), false⟩ : UnitDef Int ℚ) ∈ defs'.units := by
  obtain ⟨d, h, g, _⟩ := C52_add_dimension Sample.exactFactor Sample.sample C52.defs C52.accepted ⟨str!"Current", .base ()⟩
    (by decide +kernel) (by simp [DimensionEntry.mentions]) (ds := [(str!"current", 1)]) (by decide +kernel)
  obtain ⟨d', h', g'⟩ := C52_add_base_unit Sample.exactFactor _ d h
    ⟨str!"amperes", some (str!"A"), [], [.milli], some (str!"Current"), .base (str!"Current")⟩ (d := str!"Current") rfl rfl
    (by decide +kernel) (by decide +kernel)
    (fun p hp s hs U hU => by
      rcases (g.units U).1 hU with hU | hU
      · have key : ∀ p ∈ [(str!"amperes", some (str!"A")), (str!"milliamperes", some (str!"mA"))], ∀ U ∈ C52.defs.units, U.symbol ≠ p.2 := by
          decide +kernel
        exact hs ▸ key p hp U hU
      · simp at hU)
    (by decide +kernel) ⟨_, List.mem_append.2 (.inr (List.mem_singleton.2 rfl)), rfl, rfl⟩
    (fun w hw => by
      simp only [Sample.sample, List.mem_cons, List.not_mem_nil, or_false] at hw
      rcases hw with rfl | rfl | rfl | rfl | rfl | rfl | rfl | rfl | rfl | rfl | rfl <;> simp [Sample.unit, Sample.baseUnit])
    (fun a ha => by
      simp only [Option.some.injEq] at ha
      subst ha
      exact ⟨⟨str!"Current", [(str!"current", 1)]⟩, (g.dimensions _).2 (.inr (by simp)), rfl, by decide +kernel⟩)
  refine ⟨d', h', (g'.units _).2 (.inr ?_)⟩
  norm_num [UnitTemplate.madeUnits, UnitTemplate.made, UnitTemplate.isBase, Prefix.name, Prefix.short, MagOps.mul, MagOps.one,
      Sample.exactFactor, Prefix.literal, toSnakecase, Exponent.one]
  decide +kernel

/-- The sample system without its three constants and without `newtons` is accepted (`C52_removal`), because nothing mentions these; and all that
remains means the same (`C52_extension`). -/
def C52.smaller : UnresolvedTemplates Int ℚ :=
  { Sample.sample with units := Sample.sample.units.take 10, constants := [] }

example : ∃ defs, runUnitSystem Sample.exactFactor C52.smaller = some (defs, []) ∧ ∀ U ∈ defs.units, U ∈ C52.defs.units := by
  have ext : Extends C52.smaller Sample.sample :=
    ⟨rfl, rfl, List.Subperm.refl _, (List.take_sublist _ _).subperm, (List.nil_sublist _).subperm⟩
  obtain ⟨defs, h⟩ := C52_removal Sample.exactFactor C52.smaller Sample.sample ext
    ⟨fun x m hm => by
      have : ∀ p ∈ (UnresolvedTemplates.expand (MagOps.one Int) Sample.exactFactor C52.smaller).definitions, ∀ y ∈ p.2,
        y ∈ (UnresolvedTemplates.expand (MagOps.one Int) Sample.exactFactor C52.smaller).names := by decide +kernel
      exact this _ hm, fun x hx a ha => by
      have : ∀ x ∈ (UnresolvedTemplates.expand (MagOps.one Int) Sample.exactFactor C52.smaller).units, ∀ a ∈ x.annotation,
        a ∈ (UnresolvedTemplates.expand (MagOps.one Int) Sample.exactFactor C52.smaller).names := by decide +kernel
      exact this x hx a ha, by simp [UnresolvedTemplates.expand, C52.smaller]⟩ C52.defs C52.accepted
  exact ⟨defs, h, (C52_extension _ _ _ ext _ _ h C52.accepted).2.1⟩

end Example
end Diman
