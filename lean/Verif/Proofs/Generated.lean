import Verif.Proofs.Accepted
/-! The generated definitions of an accepted unit system. -/
set_option linter.unusedSectionVars false
namespace Diman
open LawfulExponent

theorem mapM_option_some {α β : Type} {f : α → Option β} {l : List α} {l' : List β} (h : l.mapM f = some l') :
    List.Forall₂ (fun a b => f a = some b) l l' := by
  induction l generalizing l' with
  | nil => simp at h; subst h; exact .nil
  | cons a l ih =>
    simp only [List.mapM_cons, bindM_eq_some, pure_eq_some] at h
    obtain ⟨b, hb, bs, hbs, rfl⟩ := h
    exact .cons hb (ih hbs)

theorem mapM_option_isSome {α β : Type} {f : α → Option β} {l : List α} (h : ∀ a ∈ l, (f a).isSome) : (l.mapM f).isSome := by
  induction l with
  | nil => simp
  | cons a l ih =>
    obtain ⟨b, hb⟩ := Option.isSome_iff_exists.1 (h a (by simp))
    obtain ⟨bs, hbs⟩ := Option.isSome_iff_exists.1 (ih fun r hr => h r (by simp [hr]))
    simp only [List.mapM_cons, hb, hbs]; rfl

theorem forall₂_mem_left {α β : Type} {R : α → β → Prop} {l : List α} {l' : List β} (h : List.Forall₂ R l l') {a : α}
    (ha : a ∈ l) : ∃ b ∈ l', R a b := by
  induction h with
  | nil => simp at ha
  | cons hr _ ih =>
    rcases List.mem_cons.1 ha with rfl | ha
    · exact ⟨_, by simp, hr⟩
    · obtain ⟨b, hb, h⟩ := ih ha; exact ⟨b, by simp [hb], h⟩

theorem forall₂_mem_right {α β : Type} {R : α → β → Prop} {l : List α} {l' : List β} (h : List.Forall₂ R l l') {b : β}
    (hb : b ∈ l') : ∃ a ∈ l, R a b := by
  induction h with
  | nil => simp at hb
  | cons hr _ ih =>
    rcases List.mem_cons.1 hb with rfl | hb
    · exact ⟨_, by simp, hr⟩
    · obtain ⟨a, ha, h⟩ := ih hb; exact ⟨a, by simp [ha], h⟩

theorem forall₂_map_eq {α β γ : Type} {R : α → β → Prop} {l : List α} {l' : List β} (h : List.Forall₂ R l l') {f : α → γ}
    {g : β → γ} (hfg : ∀ a ∈ l, ∀ b, R a b → f a = g b) : l.map f = l'.map g := by
  induction h with
  | nil => rfl
  | cons hr _ ih =>
    simp only [List.map_cons]
    rw [hfg _ (by simp) _ hr, ih fun a ha b hab => hfg a (by simp [ha]) b hab]

theorem find?_of_nodup {α : Type} {name : α → Str} {l : List α} (hn : (l.map name).Nodup) {a : α} (ha : a ∈ l) :
    l.find? (fun b => decide (name b = name a)) = some a := by
  induction l with
  | nil => simp at ha
  | cons b l ih =>
    simp only [List.map_cons, List.nodup_cons] at hn
    rcases List.mem_cons.1 ha with rfl | ha
    · simp
    · have : name b ≠ name a := fun hc => hn.1 (hc ▸ List.mem_map_of_mem (f := name) ha)
      simp only [List.find?_cons, this, decide_false]
      exact ih hn.2 ha

theorem find?_none_of_not_mem {α : Type} {name : α → Str} {l : List α} {x : Str} (h : x ∉ l.map name) :
    l.find? (fun b => decide (name b = x)) = none := by
  rw [List.find?_eq_none]
  intro b hb
  simp only [decide_eq_true_eq]
  rintro rfl
  exact h (List.mem_map_of_mem (f := name) hb)

section
variable {E M : Type} [Exponent E] [MagOps E M]

@[simp] theorem ofDimension_kind (d : DimensionEntry E) : (Item.ofDimension (M := M) d).kind = .dimension := rfl
@[simp] theorem ofDimension_ident (d : DimensionEntry E) : (Item.ofDimension (M := M) d).ident = d.name := rfl
@[simp] theorem ofUnit_ident (u : UnitEntry E M) : (Item.ofUnit u).ident = u.name := rfl
@[simp] theorem ofConstant_kind (c : ConstantEntry E M) : (Item.ofConstant c).kind = .constant := rfl
@[simp] theorem ofConstant_ident (c : ConstantEntry E M) : (Item.ofConstant c).ident = c.name := rfl
theorem ofUnit_kind (u : UnitEntry E M) : (Item.ofUnit u).kind = .unit ∨ (Item.ofUnit u).kind = .baseUnit := by
  unfold Item.kind Item.ofUnit
  cases h : u.definition <;> simp [h]
theorem ofUnit_kind_expression {u : UnitEntry E M} {e} (h : u.definition = .expression e) : (Item.ofUnit u).kind = .unit := by
  unfold Item.kind Item.ofUnit; simp [h]
theorem ofUnit_kind_base {u : UnitEntry E M} {d} (h : u.definition = .base d) : (Item.ofUnit u).kind = .baseUnit := by
  unfold Item.kind Item.ofUnit; simp [h]

theorem mem_allItems {u : UnresolvedDefs E M} {i : Item E M} : i ∈ allItems u ↔
    (∃ d ∈ u.dimensions, i = .ofDimension d) ∨ (∃ x ∈ u.units, i = .ofUnit x) ∨ (∃ c ∈ u.constants, i = .ofConstant c) := by
  unfold allItems
  simp only [List.mem_append, List.mem_map, eq_comm (a := i), or_assoc]

/-- The generated unit of a unit entry with value `dm`. -/
def UnitEntry.toDef (x : UnitEntry E M) (dm : DM E M) : UnitDef E M :=
  ⟨x.name, dm.dims, dm.mag, x.symbol, match x.definition with | .base _ => true | .expression _ => false⟩

theorem getDimensions_isSome (res : BMap (ResolvedItem E M)) : (getDimensions res).isSome := by
  unfold getDimensions
  apply mapM_option_isSome
  intro r hr
  simp only [List.mem_filter, decide_eq_true_eq] at hr
  have := hr.2
  unfold Item.kind at this
  cases ht : r.2.item.type with
  | dimension d => rfl
  | unit u => rw [ht] at this; simp only at this; cases hd : u.definition <;> simp [hd] at this
  | constant c => rw [ht] at this; simp at this

theorem getUnits_isSome (res : BMap (ResolvedItem E M)) : (getUnits res).isSome := by
  unfold getUnits
  apply mapM_option_isSome
  intro r hr
  simp only [List.mem_filter, Bool.or_eq_true, decide_eq_true_eq] at hr
  have := hr.2
  unfold Item.kind at this
  cases ht : r.2.item.type with
  | dimension d => rw [ht] at this; simp at this
  | unit u => rfl
  | constant c => rw [ht] at this; simp at this

theorem getConstants_isSome (res : BMap (ResolvedItem E M)) : (getConstants res).isSome := by
  unfold getConstants
  apply mapM_option_isSome
  intro r hr
  simp only [List.mem_filter, decide_eq_true_eq] at hr
  have := hr.2
  unfold Item.kind at this
  cases ht : r.2.item.type with
  | dimension d => rw [ht] at this; simp at this
  | unit u => rw [ht] at this; simp only at this; cases hd : u.definition <;> simp [hd] at this
  | constant c => rfl

theorem filter_keys_nodup {res : BMap (ResolvedItem E M)} (hs : res.Sorted) (p : Str × ResolvedItem E M → Bool) :
    ((res.filter p).map Prod.fst).Nodup := hs.nodup.sublist (List.filter_sublist.map _)

variable {u : UnresolvedDefs E M} {defs : Defs E M} {res : BMap (ResolvedItem E M)}

theorem dims_of_solution (hS : Solution (allItems u) res) {ds} (h : getDimensions res = some ds) :
    (∀ D, D ∈ ds ↔ ∃ d ∈ u.dimensions, ∃ dm, res.get d.name = some ⟨.ofDimension d, dm⟩ ∧ D = ⟨d.name, dm.dims⟩) ∧
    (ds.map DimensionDef.name).Nodup := by
  unfold getDimensions at h
  have hf := mapM_option_some h
  have hitem : ∀ r ∈ res.filter (fun r => decide (r.2.item.kind = .dimension)), ∃ d ∈ u.dimensions, r.2.item = .ofDimension d ∧
      r.1 = d.name ∧ res.get d.name = some r.2 := by
    intro r hr
    simp only [List.mem_filter, decide_eq_true_eq] at hr
    have hg := (BMap.mem_iff_get hS.sorted).1 (show (r.1, r.2) ∈ res from hr.1)
    obtain ⟨hm, hid⟩ := hS.only _ _ hg
    rcases mem_allItems.1 hm with ⟨d, hd, he⟩ | ⟨x, hx, he⟩ | ⟨c, hc, he⟩
    · rw [he] at hid; simp at hid
      exact ⟨d, hd, he, hid.symm, hid ▸ hg⟩
    · rw [he] at hr; rcases ofUnit_kind x with h | h <;> simp [h] at hr
    · rw [he] at hr; simp at hr
  constructor
  · intro D
    constructor
    · intro hD
      obtain ⟨r, hr, hrd⟩ := forall₂_mem_right hf hD
      obtain ⟨d, hd, he, h1, h2⟩ := hitem r hr
      rw [he] at hrd
      simp [Item.ofDimension] at hrd
      refine ⟨d, hd, r.2.dimensions, ?_, hrd.symm⟩
      rw [h2, ← he]
    · rintro ⟨d, hd, dm, hg, rfl⟩
      have hmem : (d.name, (⟨.ofDimension d, dm⟩ : ResolvedItem E M)) ∈ res.filter (fun r => decide (r.2.item.kind = .dimension)) := by
        simp only [List.mem_filter]
        exact ⟨(BMap.mem_iff_get hS.sorted).2 hg, by simp⟩
      obtain ⟨D, hD, hrd⟩ := forall₂_mem_left hf hmem
      simp [Item.ofDimension] at hrd
      rw [hrd]; exact hD
  · have : (res.filter (fun r => decide (r.2.item.kind = .dimension))).map Prod.fst = ds.map DimensionDef.name := by
      refine forall₂_map_eq hf fun r hr b hrb => ?_
      obtain ⟨d, hd, he, h1, h2⟩ := hitem r hr
      rw [he] at hrb; simp [Item.ofDimension] at hrb
      rw [← hrb, h1]
    rw [← this]; exact filter_keys_nodup hS.sorted _

theorem units_of_solution (hS : Solution (allItems u) res) {us} (h : getUnits res = some us) :
    (∀ U, U ∈ us ↔ ∃ x ∈ u.units, ∃ dm, res.get x.name = some ⟨.ofUnit x, dm⟩ ∧ U = x.toDef dm) ∧
    (us.map UnitDef.name).Nodup := by
  unfold getUnits at h
  have hf := mapM_option_some h
  have hitem : ∀ r ∈ res.filter (fun r => decide (r.2.item.kind = .unit) || decide (r.2.item.kind = .baseUnit)),
      ∃ d ∈ u.units, r.2.item = .ofUnit d ∧ r.1 = d.name ∧ res.get d.name = some r.2 := by
    intro r hr
    simp only [List.mem_filter, Bool.or_eq_true, decide_eq_true_eq] at hr
    have hg := (BMap.mem_iff_get hS.sorted).1 (show (r.1, r.2) ∈ res from hr.1)
    obtain ⟨hm, hid⟩ := hS.only _ _ hg
    rcases mem_allItems.1 hm with ⟨d, hd, he⟩ | ⟨x, hx, he⟩ | ⟨c, hc, he⟩
    · rw [he] at hr; simp at hr
    · rw [he] at hid; simp at hid
      exact ⟨x, hx, he, hid.symm, hid ▸ hg⟩
    · rw [he] at hr; simp at hr
  constructor
  · intro D
    constructor
    · intro hD
      obtain ⟨r, hr, hrd⟩ := forall₂_mem_right hf hD
      obtain ⟨d, hd, he, h1, h2⟩ := hitem r hr
      rw [he] at hrd
      simp [Item.ofUnit] at hrd
      refine ⟨d, hd, r.2.dimensions, ?_, hrd.symm⟩
      rw [h2, ← he]
    · rintro ⟨d, hd, dm, hg, rfl⟩
      have hmem : (d.name, (⟨.ofUnit d, dm⟩ : ResolvedItem E M)) ∈
          res.filter (fun r => decide (r.2.item.kind = .unit) || decide (r.2.item.kind = .baseUnit)) := by
        simp only [List.mem_filter]
        exact ⟨(BMap.mem_iff_get hS.sorted).2 hg, by rcases ofUnit_kind d with h | h <;> simp [h]⟩
      obtain ⟨D, hD, hrd⟩ := forall₂_mem_left hf hmem
      simp [Item.ofUnit] at hrd
      have : d.toDef dm = D := by rw [← hrd]; rfl
      rw [this]; exact hD
  · have : (res.filter (fun r => decide (r.2.item.kind = .unit) || decide (r.2.item.kind = .baseUnit))).map Prod.fst =
        us.map UnitDef.name := by
      refine forall₂_map_eq hf fun r hr b hrb => ?_
      obtain ⟨d, hd, he, h1, h2⟩ := hitem r hr
      rw [he] at hrb; simp [Item.ofUnit] at hrb
      rw [← hrb, h1]
    rw [← this]; exact filter_keys_nodup hS.sorted _

theorem constants_of_solution (hS : Solution (allItems u) res) {cs} (h : getConstants res = some cs) :
    (∀ D, D ∈ cs ↔ ∃ d ∈ u.constants, ∃ dm, res.get d.name = some ⟨.ofConstant d, dm⟩ ∧ D = ⟨d.name, dm.dims, dm.mag⟩) ∧
    (cs.map ConstantDef.name).Nodup := by
  unfold getConstants at h
  have hf := mapM_option_some h
  have hitem : ∀ r ∈ res.filter (fun r => decide (r.2.item.kind = .constant)), ∃ d ∈ u.constants, r.2.item = .ofConstant d ∧
      r.1 = d.name ∧ res.get d.name = some r.2 := by
    intro r hr
    simp only [List.mem_filter, decide_eq_true_eq] at hr
    have hg := (BMap.mem_iff_get hS.sorted).1 (show (r.1, r.2) ∈ res from hr.1)
    obtain ⟨hm, hid⟩ := hS.only _ _ hg
    rcases mem_allItems.1 hm with ⟨d, hd, he⟩ | ⟨x, hx, he⟩ | ⟨c, hc, he⟩
    · rw [he] at hr; simp at hr
    · rw [he] at hr; rcases ofUnit_kind x with h | h <;> simp [h] at hr
    · rw [he] at hid; simp at hid
      exact ⟨c, hc, he, hid.symm, hid ▸ hg⟩
  constructor
  · intro D
    constructor
    · intro hD
      obtain ⟨r, hr, hrd⟩ := forall₂_mem_right hf hD
      obtain ⟨d, hd, he, h1, h2⟩ := hitem r hr
      rw [he] at hrd
      simp [Item.ofConstant] at hrd
      refine ⟨d, hd, r.2.dimensions, ?_, hrd.symm⟩
      rw [h2, ← he]
    · rintro ⟨d, hd, dm, hg, rfl⟩
      have hmem : (d.name, (⟨.ofConstant d, dm⟩ : ResolvedItem E M)) ∈ res.filter (fun r => decide (r.2.item.kind = .constant)) := by
        simp only [List.mem_filter]
        exact ⟨(BMap.mem_iff_get hS.sorted).2 hg, by simp⟩
      obtain ⟨D, hD, hrd⟩ := forall₂_mem_left hf hmem
      simp [Item.ofConstant] at hrd
      rw [hrd]; exact hD
  · have : (res.filter (fun r => decide (r.2.item.kind = .constant))).map Prod.fst = cs.map ConstantDef.name := by
      refine forall₂_map_eq hf fun r hr b hrb => ?_
      obtain ⟨d, hd, he, h1, h2⟩ := hitem r hr
      rw [he] at hrb; simp [Item.ofConstant] at hrb
      rw [← hrb, h1]
    rw [← this]; exact filter_keys_nodup hS.sorted _

/-- Everything acceptance gives, in one place. -/
structure Accepted (u : UnresolvedDefs E M) (defs : Defs E M) (res : BMap (ResolvedItem E M)) : Prop where
  quantity : u.quantityTypes = [defs.quantityType]
  dimension : u.dimensionTypes = [defs.dimensionType]
  base_units : (∀ d ∈ baseOf u.units, ∃ e ∈ u.dimensions, e.isBase = true ∧ e.name = d) ∧ (baseOf u.units).Nodup
  symbols : (u.units.filterMap UnitEntry.symbol).Nodup
  base_dims : defs.baseDimensions = baseDimensions u.dimensions
  defined : ∀ i ∈ allItems u, ∀ x ∈ i.refs, x ∈ u.names
  nodup : u.names.Nodup
  kinds : ∀ i ∈ allItems u, ∀ j ∈ allItems u, j.ident ∈ i.refs → i.kind.allows j.kind = true
  grounded : ∀ x ∈ u.names, Grounded u.definitions x
  solution : Solution (allItems u) res
  annotations : checkAnnotations res = []
  dims : getDimensions res = some defs.dimensions
  units : getUnits res = some defs.units
  constants : getConstants res = some defs.constants
  base_symbols : checkBaseSymbols defs.units = []

theorem accepted_iff (ha : u.AutoOk) : resolveDefs u = some (defs, []) ↔ ∃ res, Accepted u defs res := by
  rw [resolveDefs_nil]
  constructor
  · rintro ⟨h1, h2, h3, h4, h5, res, h6, h7, h8, h9, h10⟩
    obtain ⟨g1, g2, g3, g4, g5, g6⟩ := (resolveItems_nil (allItems_autoOk ha)).1 h6
    have hb := checkBaseUnits_nil.1 h3
    refine ⟨res, h1, h2, ⟨fun d hd => ?_, ?_⟩, checkSymbols_nil.1 h4, h5, ?_, ?_, g3, ?_, g5, g6, h7, h8, h9, h10⟩
    · have := hb.1 d hd
      simp only [List.mem_map, List.mem_filter] at this
      obtain ⟨e, ⟨h1, h2⟩, h3⟩ := this
      exact ⟨e, h1, h2, h3⟩
    · rw [List.nodup_iff_count_le_one]
      intro d
      by_cases hd : d ∈ baseOf u.units
      · have := hb.2 d hd; omega
      · rw [List.count_eq_zero.2 hd]; omega
    · rwa [← allItems_ident]
    · rwa [← allItems_ident]
    · intro x hx
      rw [← allItems_ident, List.mem_map] at hx
      obtain ⟨i, hi, rfl⟩ := hx
      rw [← itemDefs_allItems]; exact g4 i hi
  · rintro ⟨res, h⟩
    refine ⟨h.quantity, h.dimension, ?_, checkSymbols_nil.2 h.symbols, h.base_dims, res, ?_, h.dims, h.units, h.constants,
      h.base_symbols⟩
    · rw [checkBaseUnits_nil]
      refine ⟨fun d hd => ?_, fun d hd => ?_⟩
      · obtain ⟨e, h1, h2, h3⟩ := h.base_units.1 d hd
        simp only [List.mem_map, List.mem_filter]
        exact ⟨e, ⟨h1, h2⟩, h3⟩
      · have := List.nodup_iff_count_le_one.1 h.base_units.2 d; omega
    · rw [resolveItems_nil (allItems_autoOk ha), allItems_ident, itemDefs_allItems]
      refine ⟨h.defined, h.nodup, h.kinds, fun i hi => h.grounded _ ?_, h.solution, h.annotations⟩
      rw [← allItems_ident]; exact List.mem_map_of_mem (f := Item.ident) hi

namespace Accepted
variable (h : Accepted u defs res)
include h

theorem dim_nodup : (defs.dimensions.map DimensionDef.name).Nodup := (dims_of_solution h.solution h.dims).2
theorem unit_nodup : (defs.units.map UnitDef.name).Nodup := (units_of_solution h.solution h.units).2
theorem const_nodup : (defs.constants.map ConstantDef.name).Nodup := (constants_of_solution h.solution h.constants).2

theorem dim_val {d} (hd : d ∈ u.dimensions) : ∃ dm, res.get d.name = some ⟨.ofDimension d, dm⟩ ∧
    resolveDimensions res (.ofDimension d) = some dm ∧ (⟨d.name, dm.dims⟩ : DimensionDef E) ∈ defs.dimensions := by
  obtain ⟨dm, g, e⟩ := h.solution.eqn (.ofDimension d) (mem_allItems.2 (.inl ⟨d, hd, rfl⟩))
  exact ⟨dm, g, e, ((dims_of_solution h.solution h.dims).1 _).2 ⟨d, hd, dm, g, rfl⟩⟩

theorem unit_val {x} (hx : x ∈ u.units) : ∃ dm, res.get x.name = some ⟨.ofUnit x, dm⟩ ∧
    resolveDimensions res (.ofUnit x) = some dm ∧ x.toDef dm ∈ defs.units := by
  obtain ⟨dm, g, e⟩ := h.solution.eqn (.ofUnit x) (mem_allItems.2 (.inr (.inl ⟨x, hx, rfl⟩)))
  exact ⟨dm, g, e, ((units_of_solution h.solution h.units).1 _).2 ⟨x, hx, dm, g, rfl⟩⟩

theorem const_val {c} (hc : c ∈ u.constants) : ∃ dm, res.get c.name = some ⟨.ofConstant c, dm⟩ ∧
    resolveDimensions res (.ofConstant c) = some dm ∧ (⟨c.name, dm.dims, dm.mag⟩ : ConstantDef E M) ∈ defs.constants := by
  obtain ⟨dm, g, e⟩ := h.solution.eqn (.ofConstant c) (mem_allItems.2 (.inr (.inr ⟨c, hc, rfl⟩)))
  exact ⟨dm, g, e, ((constants_of_solution h.solution h.constants).1 _).2 ⟨c, hc, dm, g, rfl⟩⟩

theorem dim_from {D} (hD : D ∈ defs.dimensions) : ∃ d ∈ u.dimensions, ∃ dm, res.get d.name = some ⟨.ofDimension d, dm⟩ ∧
    D = ⟨d.name, dm.dims⟩ := ((dims_of_solution h.solution h.dims).1 D).1 hD
theorem unit_from {U} (hU : U ∈ defs.units) : ∃ x ∈ u.units, ∃ dm, res.get x.name = some ⟨.ofUnit x, dm⟩ ∧
    U = x.toDef dm := ((units_of_solution h.solution h.units).1 U).1 hU
theorem const_from {C} (hC : C ∈ defs.constants) : ∃ c ∈ u.constants, ∃ dm, res.get c.name = some ⟨.ofConstant c, dm⟩ ∧
    C = ⟨c.name, dm.dims, dm.mag⟩ := ((constants_of_solution h.solution h.constants).1 C).1 hC

/-- Whatever an item mentions has been resolved. -/
theorem ref_val {i} (hi : i ∈ allItems u) {x} (hx : x ∈ i.refs) : ∃ r, res.get x = some r ∧ r.item ∈ allItems u ∧
    r.item.ident = x ∧ i.kind.allows r.item.kind = true := by
  have hd := h.defined i hi x hx
  rw [← allItems_ident, List.mem_map] at hd
  obtain ⟨j, hj, rfl⟩ := hd
  obtain ⟨dm, g, _⟩ := h.solution.eqn j hj
  exact ⟨_, g, hj, rfl, h.kinds i hi j hj hx⟩

theorem ref_dim {i} (hi : i ∈ allItems u) {x} (hx : x ∈ i.refs) (hk : i.kind = .dimension ∨ i.kind = .baseUnit) :
    ∃ d ∈ u.dimensions, d.name = x ∧ ∃ dm, res.get x = some ⟨.ofDimension d, dm⟩ ∧
      (⟨x, dm.dims⟩ : DimensionDef E) ∈ defs.dimensions := by
  obtain ⟨r, hr, hm, hid, hal⟩ := h.ref_val hi hx
  have hkd : r.item.kind = .dimension := by
    rcases hk with hk | hk <;> rw [hk] at hal <;> simpa [Kind.allows] using hal
  rcases mem_allItems.1 hm with ⟨d, hd, he⟩ | ⟨y, hy, he⟩ | ⟨c, hc, he⟩
  · rw [he] at hid; simp at hid; subst hid
    obtain ⟨dm, g, _, hD⟩ := h.dim_val hd
    exact ⟨d, hd, rfl, dm, g, hD⟩
  · rw [he] at hkd; rcases ofUnit_kind y with h | h <;> simp [h] at hkd
  · rw [he] at hkd; simp at hkd

theorem ref_unit {i} (hi : i ∈ allItems u) {x} (hx : x ∈ i.refs) (hk : i.kind = .unit ∨ i.kind = .constant) :
    ∃ dm j, res.get x = some ⟨j, dm⟩ ∧
      ((∃ U ∈ defs.units, U.name = x ∧ U.dims = dm.dims ∧ U.mag = dm.mag) ∨
        (⟨x, dm.dims, dm.mag⟩ : ConstantDef E M) ∈ defs.constants) := by
  obtain ⟨r, hr, hm, hid, hal⟩ := h.ref_val hi hx
  have hkd : r.item.kind ≠ .dimension := by
    rcases hk with hk | hk <;> rw [hk] at hal <;> intro hc <;> rw [hc] at hal <;> simp [Kind.allows] at hal
  rcases mem_allItems.1 hm with ⟨d, hd, he⟩ | ⟨y, hy, he⟩ | ⟨c, hc, he⟩
  · rw [he] at hkd; simp at hkd
  · rw [he] at hid; simp at hid; subst hid
    obtain ⟨dm, g, _, hD⟩ := h.unit_val hy
    exact ⟨dm, _, g, .inl ⟨_, hD, rfl, rfl, rfl⟩⟩
  · rw [he] at hid; simp at hid; subst hid
    obtain ⟨dm, g, _, hD⟩ := h.const_val hc
    exact ⟨dm, _, g, .inr hD⟩

/-- A unit and a constant never have the same name. -/
theorem unit_const_disjoint {U C} (hU : U ∈ defs.units) (hC : C ∈ defs.constants) : U.name ≠ C.name := by
  obtain ⟨x, hx, dm, g, rfl⟩ := h.unit_from hU
  obtain ⟨c, hc, dm', g', rfl⟩ := h.const_from hC
  intro he
  simp only [UnitEntry.toDef] at he
  rw [he, g'] at g
  injection g with g
  injection g with g _
  injection g with _ g
  simp [Item.ofConstant] at g

end Accepted

/-! ### Values -/

/-- Leaf values during the evaluation of an item, given that all its identifiers are resolved. -/
def leafD (res : BMap (ResolvedItem E M)) : Atom (DM E M) → DM E M
  | .concrete c => c
  | .other x => match res.get x with
    | some r => r.dimensions
    | none => ⟨[], MagOps.one E⟩

theorem resolveDimensions_eval {i : Item E M} {dm : DM E M} (h : resolveDimensions res i = some dm) :
    (i.expr.map (leafD res)).eval = some dm := by
  rw [resolveDimensions_def, Option.bind_eq_some_iff] at h
  obtain ⟨e', h1, h2⟩ := h
  have hs := Expr.mapM_some_forall _ h1
  have : i.expr.mapM (leafOf res) = some (i.expr.map (leafD res)) := by
    apply Expr.mapM_of_forall
    intro a ha
    have := hs a ha
    cases a with
    | concrete c => rfl
    | other x =>
      simp only [leafOf, leafD] at this ⊢
      cases hg : res.get x with
      | none => rw [hg] at this; simp at this
      | some r => rfl
  rw [this] at h1
  injection h1 with h1
  rw [h1]; exact h2

mutual
theorem Expr.eval_mag (e : Expr (DM E M) E) {r : DM E M} (h : e.eval = some r) : r.mag = e.specMag DM.mag := by
  cases e with
  | value v => simp only [Expr.eval] at h; simpa [Expr.specMag] using Factor.eval_mag v h
  | binary l o r' =>
    cases o with
    | mul =>
      simp only [Expr.eval, bindM_eq_some] at h
      obtain ⟨a, ha, b, hb, hm⟩ := h
      have := dm_mul_some hm
      simp only [Expr.specMag, ← Expr.eval_mag l ha, ← Factor.eval_mag r' hb]
      exact this.2
    | div =>
      simp only [Expr.eval, bindM_eq_some] at h
      obtain ⟨a, ha, b, hb, hm⟩ := h
      have := dm_div_some hm
      simp only [Expr.specMag, ← Expr.eval_mag l ha, ← Factor.eval_mag r' hb]
      exact this.2
theorem Factor.eval_mag (f : Factor (DM E M) E) {r : DM E M} (h : f.eval = some r) : r.mag = f.specMag DM.mag := by
  cases f with
  | value v => simp only [Factor.eval, Option.some.injEq] at h; subst h; rfl
  | power v p => simp only [Factor.eval] at h; exact (dm_pow_some h).2
  | paren e => simp only [Factor.eval] at h; simpa [Factor.specMag] using Expr.eval_mag e h
end

mutual
theorem Expr.specMag_congr {T T2 : Type} (f : T → T2) (ρ : T2 → M) (ρ' : T → M) (e : Expr T E)
    (h : ∀ v ∈ e.vals, ρ (f v) = ρ' v) : (e.map f).specMag ρ = e.specMag ρ' := by
  cases e with
  | value v => simp only [Expr.vals] at h; simpa [Expr.map, Expr.specMag] using Factor.specMag_congr f ρ ρ' v h
  | binary l o r =>
    simp only [Expr.vals, List.mem_append] at h
    have h1 := Expr.specMag_congr f ρ ρ' l fun v hv => h v (.inl hv)
    have h2 := Factor.specMag_congr f ρ ρ' r fun v hv => h v (.inr hv)
    cases o <;> simp [Expr.map, Expr.specMag, h1, h2]
theorem Factor.specMag_congr {T T2 : Type} (f : T → T2) (ρ : T2 → M) (ρ' : T → M) (e : Factor T E)
    (h : ∀ v ∈ e.vals, ρ (f v) = ρ' v) : (e.map f).specMag ρ = e.specMag ρ' := by
  cases e with
  | value v => simp [Factor.vals] at h; simp [Factor.map, Factor.specMag, h]
  | power v p => simp [Factor.vals] at h; simp [Factor.map, Factor.specMag, h]
  | paren e => simp only [Factor.vals] at h; simpa [Factor.map, Factor.specMag] using Expr.specMag_congr f ρ ρ' e h
end

end

section
variable {E M : Type} [Exponent E] [LawfulExponent E] [MagOps E M]

mutual
theorem Expr.specExpo_congr {T T2 : Type} (f : T → T2) (ρ : T2 → Str → ℚ) (ρ' : T → Str → ℚ) (k : Str) (e : Expr T E)
    (h : ∀ v ∈ e.vals, ρ (f v) k = ρ' v k) : (e.map f).specExpo ρ k = e.specExpo ρ' k := by
  cases e with
  | value v => simp only [Expr.vals] at h; simpa [Expr.map, Expr.specExpo] using Factor.specExpo_congr f ρ ρ' k v h
  | binary l o r =>
    simp only [Expr.vals, List.mem_append] at h
    have h1 := Expr.specExpo_congr f ρ ρ' k l fun v hv => h v (.inl hv)
    have h2 := Factor.specExpo_congr f ρ ρ' k r fun v hv => h v (.inr hv)
    cases o <;> simp [Expr.map, Expr.specExpo, h1, h2]
theorem Factor.specExpo_congr {T T2 : Type} (f : T → T2) (ρ : T2 → Str → ℚ) (ρ' : T → Str → ℚ) (k : Str) (e : Factor T E)
    (h : ∀ v ∈ e.vals, ρ (f v) k = ρ' v k) : (e.map f).specExpo ρ k = e.specExpo ρ' k := by
  cases e with
  | value v => simp [Factor.vals] at h; simp [Factor.map, Factor.specExpo, h]
  | power v p => simp [Factor.vals] at h; simp [Factor.map, Factor.specExpo, h]
  | paren e => simp only [Factor.vals] at h; simpa [Factor.map, Factor.specExpo] using Expr.specExpo_congr f ρ ρ' k e h
end

/-- Every literal dimension map in an item is a map, and every exponent literal denotes a rational. -/
def Item.Good (i : Item E M) : Prop :=
  (∀ c, Atom.concrete c ∈ i.expr.vals → c.dims.WF) ∧ i.expr.AllExp (LawfulExponent.Good : E → Prop)

theorem allItems_good {u : UnresolvedDefs E M} (hg : u.GoodExponents) : ∀ i ∈ allItems u, i.Good := by
  intro i hi
  rcases mem_allItems.1 hi with ⟨d, hd, rfl⟩ | ⟨x, hx, rfl⟩ | ⟨c, hc, rfl⟩
  · have := hg.1 d hd
    unfold Item.ofDimension Item.Good
    cases hr : d.rhs with
    | base b =>
      refine ⟨?_, by simp [Expr.AllExp, Factor.AllExp]⟩
      intro c hc
      simp [Expr.vals, Factor.vals] at hc
      subst hc
      exact ⟨by simp [DM.dimensions], by simp [DM.dimensions, canon_good one_canon]⟩
    | expression e =>
      rw [hr] at this
      refine ⟨?_, (Expr.allExp_map _ _ e).2 this⟩
      intro c hc
      simp only [Expr.vals_map, List.mem_map] at hc
      obtain ⟨a, _, ha⟩ := hc
      cases a with
      | concrete _ => simp [Atom.mapConcrete] at ha; subst ha; exact Dims.wf_nil
      | other _ => simp [Atom.mapConcrete] at ha
  · have := hg.2.1 x hx
    unfold Item.ofUnit Item.Good
    cases hr : x.definition with
    | base b =>
      refine ⟨?_, by simp [Expr.AllExp, Factor.AllExp]⟩
      intro c hc
      simp [Expr.vals, Factor.vals] at hc
    | expression e =>
      rw [hr] at this
      refine ⟨?_, (Expr.allExp_map _ _ e).2 this⟩
      intro c hc
      simp only [Expr.vals_map, List.mem_map] at hc
      obtain ⟨a, _, ha⟩ := hc
      cases a with
      | concrete _ => simp [Atom.mapConcrete] at ha; subst ha; exact Dims.wf_nil
      | other _ => simp [Atom.mapConcrete] at ha
  · have := hg.2.2 c hc
    unfold Item.ofConstant Item.Good
    refine ⟨?_, (Expr.allExp_map _ _ _).2 this⟩
    intro c' hc'
    simp only [Expr.vals_map, List.mem_map] at hc'
    obtain ⟨a, _, ha⟩ := hc'
    cases a with
    | concrete _ => simp [Atom.mapConcrete] at ha; subst ha; exact Dims.wf_nil
    | other _ => simp [Atom.mapConcrete] at ha

theorem solution_wf {l : List (Item E M)} {res : BMap (ResolvedItem E M)} (hS : Solution l res) (hgood : ∀ i ∈ l, i.Good)
    {x : Str} (hx : Grounded (itemDefs l) x) : ∀ r, res.get x = some r → r.dimensions.dims.WF := by
  induction hx with
  | intro x rs hx _ ih =>
    intro r hr
    obtain ⟨i, hi, rfl, rfl⟩ := mem_itemDefs.1 hx
    obtain ⟨dm, g, e⟩ := hS.eqn i hi
    rw [hr] at g; injection g with g; subst g
    have he := resolveDimensions_eval e
    refine (Expr.eval_expo _ ?_ ((Expr.allExp_map _ _ _).2 (hgood i hi).2) he).1
    intro d hd
    simp only [Expr.vals_map, List.mem_map] at hd
    obtain ⟨a, ha, rfl⟩ := hd
    cases a with
    | concrete c => exact (hgood i hi).1 c ha
    | other y =>
      simp only [leafD]
      cases hg : res.get y with
      | none => exact Dims.wf_nil
      | some r => exact ih y (mem_refs.2 ha) r hg

/-- The exponents of a resolved item are those its expression prescribes. -/
theorem Accepted.expo {u : UnresolvedDefs E M} {defs : Defs E M} {res : BMap (ResolvedItem E M)} (h : Accepted u defs res)
    (hg : u.GoodExponents) {i : Item E M} (hi : i ∈ allItems u) {dm : DM E M} (e : resolveDimensions res i = some dm) (k : Str) :
    dm.dims.expo k = i.expr.specExpo (fun a => (leafD res a).dims.expo) k := by
  have he := resolveDimensions_eval e
  have hgood := allItems_good hg
  have := (Expr.eval_expo _ ?_ ((Expr.allExp_map _ _ _).2 (hgood i hi).2) he).2 k
  · rw [this]; exact Expr.specExpo_congr _ _ _ _ _ fun v _ => rfl
  · intro d hd
    simp only [Expr.vals_map, List.mem_map] at hd
    obtain ⟨a, ha, rfl⟩ := hd
    cases a with
    | concrete c => exact (hgood i hi).1 c ha
    | other y =>
      simp only [leafD]
      cases hg : res.get y with
      | none => exact Dims.wf_nil
      | some r =>
        refine solution_wf h.solution hgood ?_ r hg
        rw [itemDefs_allItems]
        exact h.grounded y (h.defined i hi y (mem_refs.2 ha))

theorem Accepted.wf {u : UnresolvedDefs E M} {defs : Defs E M} {res : BMap (ResolvedItem E M)} (h : Accepted u defs res)
    (hg : u.GoodExponents) {x : Str} {r} (hr : res.get x = some r) : r.dimensions.dims.WF := by
  refine solution_wf h.solution (allItems_good hg) ?_ r hr
  rw [itemDefs_allItems]
  apply h.grounded
  obtain ⟨h1, rfl⟩ := h.solution.only _ _ hr
  rw [← allItems_ident]; exact List.mem_map_of_mem (f := Item.ident) h1

end
end Diman
