import Verif.Proofs.WellFormed
import Verif.Proofs.Fits
import Verif.Props.C52
import Verif.Props.C42Reading
/-!
# C80 Exactly the well-formed unit systems are accepted
Every other property about acceptance (C09, C11, C12, C13, C14, C39, C52) treats one check. Here the checks together: the macro reports nothing if and only if the
statements as written satisfy `Unresolved.WellFormed`.
-/
set_option linter.unusedSectionVars false
namespace Diman
open LawfulExponent

section
variable {E M : Type} [Exponent E] [LawfulExponent E] [MagOps E M]

theorem checkAnnotations_nil_iff {res : BMap (ResolvedItem E M)} : checkAnnotations res = [] ↔ ∀ k it a, (k, it) ∈ res → it.item.annotation = some a →
    ∃ ann, res.get a = some ann ∧ ann.item.kind = .dimension ∧ ann.dimensions.dims.eq it.dimensions.dims = true := by
  rw [List.eq_nil_iff_forall_not_mem]
  constructor
  · intro h k it a hm ha
    cases hr : res.get a with
    | none => exact absurd (mem_checkAnnotations.2 ⟨k, it, a, hm, ha, .inr (.inr ⟨hr, rfl⟩)⟩) (h _)
    | some ann =>
      refine ⟨ann, rfl, ?_, ?_⟩
      · by_contra hk
        exact h _ (mem_checkAnnotations.2 ⟨k, it, a, hm, ha, .inl ⟨ann, hr, hk, rfl⟩⟩)
      · by_contra hk
        by_cases hd : ann.item.kind = .dimension
        · exact h _ (mem_checkAnnotations.2 ⟨k, it, a, hm, ha, .inr (.inl ⟨ann, hr, hd, by simpa using hk, rfl⟩)⟩)
        · exact h _ (mem_checkAnnotations.2 ⟨k, it, a, hm, ha, .inl ⟨ann, hr, hd, rfl⟩⟩)
  · intro h x hx
    obtain ⟨k, it, a, hm, ha, hx⟩ := mem_checkAnnotations.1 hx
    obtain ⟨ann, h1, h2, h3⟩ := h k it a hm ha
    rcases hx with ⟨ann', g1, g2, _⟩ | ⟨ann', g1, g2, g3, _⟩ | ⟨g1, _⟩ <;> rw [h1] at g1
    · injection g1 with g1; subst g1; exact g2 h2
    · injection g1 with g1; subst g1; rw [h3] at g3; simp at g3
    · simp at g1

theorem measures_iff {one : M} {factor : Prefix → M} {t : UnresolvedTemplates E M} {y : Str} :
    (UnresolvedTemplates.expand one factor t).NamesUnitOrConstant y ↔ t.Measures y := by
  unfold Unresolved.NamesUnitOrConstant Unresolved.Measures
  simp only [UnresolvedTemplates.expand, List.mem_flatMap]
  refine or_congr ⟨?_, ?_⟩ ⟨?_, ?_⟩
  · rintro ⟨e, ⟨v, hv, he⟩, hy⟩; exact ⟨v, hv, mem_expand_name.1 ⟨e, he, hy⟩⟩
  · rintro ⟨v, hv, h⟩
    obtain ⟨e, he, hy⟩ := mem_expand_name (one := one) (factor := factor) |>.2 h
    exact ⟨e, ⟨v, hv, he⟩, hy⟩
  · rintro ⟨c, hc, h⟩; exact ⟨c, hc, h.symm⟩
  · rintro ⟨c, hc, h⟩; exact ⟨c, hc, h.symm⟩

theorem kindsOk_iff {one : M} {factor : Prefix → M} {t : UnresolvedTemplates E M}
    (hb : ∀ v ∈ t.units, ∀ d, v.definition = .base d → ∃ b ∈ t.dimensions, b.name = d) :
    (UnresolvedTemplates.expand one factor t).KindsOk ↔
      (∀ d ∈ t.dimensions, ∀ y ∈ d.mentions, ∃ d' ∈ t.dimensions, d'.name = y) ∧
      (∀ v ∈ t.units, ∀ e, v.definition = .expression e → ∀ y ∈ e.idents, t.Measures y) ∧
      (∀ c ∈ t.constants, ∀ y ∈ c.mentions, t.Measures y) := by
  unfold Unresolved.KindsOk
  refine and_congr Iff.rfl (and_congr ⟨?_, ?_⟩ ⟨?_, ?_⟩)
  · intro h v hv e he y hy
    obtain ⟨x, hx, _, hd, _⟩ := expand_main (one := one) (factor := factor) v
    have hm : x ∈ (UnresolvedTemplates.expand one factor t).units := List.mem_flatMap.2 ⟨v, hv, hx⟩
    have := h x hm y (by unfold UnitEntry.mentions; rw [hd, he]; exact hy)
    rw [hd, he] at this
    exact measures_iff.1 this
  · intro h x hx y hy
    obtain ⟨v, hv, hx⟩ := List.mem_flatMap.1 (show x ∈ t.units.flatMap (fun v => v.expand one factor) from hx)
    unfold UnitEntry.mentions at hy
    rcases expand_cases hx with ⟨_, hd, _⟩ | ⟨_, f, hd⟩
    · rw [hd] at hy ⊢
      cases hr : v.definition with
      | base d =>
        rw [hr] at hy
        simp only [List.mem_singleton] at hy
        subst hy
        exact hb v hv _ hr
      | expression e =>
        rw [hr] at hy
        exact measures_iff.2 (h v hv e hr y hy)
    · rw [hd] at hy ⊢
      have : y = v.name := by simpa [variantDef, Expr.idents, Factor.idents, Expr.vals, Factor.vals] using hy
      subst this
      exact measures_iff.2 (.inl ⟨v, hv, .inl rfl⟩)
  · intro h c hc y hy; exact measures_iff.1 (h c hc y hy)
  · intro h c hc y hy; exact measures_iff.2 (h c hc y hy)

theorem reaches_iff {one : M} {factor : Prefix → M} {t : UnresolvedTemplates E M} {x k : Str} :
    (∃ b ∈ (UnresolvedTemplates.expand one factor t).dimensions, b.rhs = .base () ∧ toSnakecase b.name = k ∧
      (x = b.name ∨ DependsOn (UnresolvedTemplates.expand one factor t).definitions x b.name)) ↔ t.Reaches x k := by
  rw [dependsOn_written]; rfl

theorem Dims.get_of_key {d : Dims E} {k : Str} (h : k ∈ d.map Prod.fst) : ∃ v, Dims.get d k = some v := by
  induction d with
  | nil => simp at h
  | cons p d ih =>
    obtain ⟨k', v'⟩ := p
    unfold Dims.get
    split
    · exact ⟨_, rfl⟩
    · rename_i hk
      rcases List.mem_cons.1 h with h | h
      · exact absurd h.symm hk
      · exact ih h

theorem Dims.get_of_mem_wf {d : Dims E} (hw : (d.map Prod.fst).Nodup) {k : Str} {v : E} (h : (k, v) ∈ d) : Dims.get d k = some v := by
  obtain ⟨w, hw'⟩ := Dims.get_of_key (List.mem_map_of_mem (f := Prod.fst) h)
  have h2 := Dims.get_mem' hw'
  have := List.inj_on_of_nodup_map hw h h2 rfl
  rw [hw']; injection this with _ this; rw [this]

/-- What the resolver compares, in terms of the statements. -/
theorem annotation_eq_iff {factor : Prefix → M} {t : UnresolvedTemplates E M} {res : BMap (ResolvedItem E M)} (hc : t.CanonicalExponents)
    (hS : Solution (allItems (UnresolvedTemplates.expand (MagOps.one E) factor t)) res)
    (hn : (UnresolvedTemplates.expand (MagOps.one E) factor t).names.Nodup)
    (hg : ∀ i ∈ allItems (UnresolvedTemplates.expand (MagOps.one E) factor t),
      Grounded (itemDefs (allItems (UnresolvedTemplates.expand (MagOps.one E) factor t))) i.ident)
    {x a : Str} {r ann : ResolvedItem E M} (hx : res.get x = some r) (ha : res.get a = some ann) :
    ann.dimensions.dims.eq r.dimensions.dims = true ↔ ∀ k, t.Reaches a k → t.Reaches x k ∧ ∀ ρ, t.Balanced ρ → ρ x k = ρ a k := by
  have hgood := allItems_good (goodExponents_of_canonical (one := MagOps.one E) (factor := factor) hc)
  have hcan := allItems_canonical (one := MagOps.one E) (factor := factor) hc
  have gof : ∀ {y s}, res.get y = some s → Grounded (itemDefs (allItems (UnresolvedTemplates.expand (MagOps.one E) factor t))) y := by
    intro y s hy
    obtain ⟨h1, h2⟩ := hS.only _ _ hy
    rw [← h2]; exact hg _ h1
  have keys : ∀ {y s}, res.get y = some s → ∀ k, k ∈ s.dimensions.dims.map Prod.fst ↔ t.Reaches y k := by
    intro y s hy k
    rw [hS.keys_iff hn (gof hy) s hy k]; exact reaches_iff
  have hbal := resolved_balanced hS hgood hg
  have uniq : ∀ {y s}, res.get y = some s → ∀ {ρ}, t.Balanced ρ → ∀ k, ρ y k = s.dimensions.dims.expo k := by
    intro y s hy ρ hρ k
    rw [itemsBalanced_unique (balanced_iff.1 hρ) hbal (gof hy) k]
    simp only [resolvedExpo, hy]
  have wfa := solution_wf hS hgood (gof ha) _ ha
  have ca := solution_canonical hS hcan (gof ha) _ ha
  have cx := solution_canonical hS hcan (gof hx) _ hx
  rw [Dims.eq_iff]
  constructor
  · intro h k hk
    obtain ⟨v, hv⟩ := Dims.get_of_key ((keys ha k).2 hk)
    have hv' := h k v (Dims.get_mem' hv)
    refine ⟨(keys hx k).1 (List.mem_map_of_mem (f := Prod.fst) (Dims.get_mem' hv')), fun ρ hρ => ?_⟩
    rw [uniq hx hρ, uniq ha hρ]
    simp only [Dims.expo, hv, hv']
  · intro h k v hm
    have hv := Dims.get_of_mem_wf wfa.1 hm
    obtain ⟨h1, h2⟩ := h k ((keys ha k).1 (List.mem_map_of_mem (f := Prod.fst) hm))
    obtain ⟨w, hw⟩ := Dims.get_of_key ((keys hx k).2 h1)
    have := h2 _ (balanced_iff.2 hbal)
    simp only [resolvedExpo, hx, ha, Dims.expo, hv, hw] at this
    have hwv : w = v := canon_ext (cx _ (Dims.get_mem' hw)) (ca _ (Dims.get_mem' hv)) this
    rw [hw, hwv]

theorem annotated_item {u : UnresolvedDefs E M} {x a : Str} : u.Annotated x a ↔ ∃ i ∈ allItems u, i.ident = x ∧ i.annotation = some a := by
  constructor
  · rintro (⟨v, hv, h1, h2⟩ | ⟨c, hc, h1, h2⟩)
    · exact ⟨_, mem_allItems.2 (.inr (.inl ⟨v, hv, rfl⟩)), h1, h2⟩
    · exact ⟨_, mem_allItems.2 (.inr (.inr ⟨c, hc, rfl⟩)), h1, h2⟩
  · rintro ⟨i, hi, h1, h2⟩
    rcases mem_allItems.1 hi with ⟨d, hd, rfl⟩ | ⟨v, hv, rfl⟩ | ⟨c, hc, rfl⟩
    · exact absurd (show (none : Option Str) = some a from h2) (by simp)
    · exact .inl ⟨v, hv, h1, h2⟩
    · exact .inr ⟨c, hc, h1, h2⟩

theorem annotations_iff {factor : Prefix → M} {t : UnresolvedTemplates E M} {res : BMap (ResolvedItem E M)} (hc : t.CanonicalExponents)
    (hS : Solution (allItems (UnresolvedTemplates.expand (MagOps.one E) factor t)) res)
    (hn : (UnresolvedTemplates.expand (MagOps.one E) factor t).names.Nodup)
    (hg : ∀ i ∈ allItems (UnresolvedTemplates.expand (MagOps.one E) factor t),
      Grounded (itemDefs (allItems (UnresolvedTemplates.expand (MagOps.one E) factor t))) i.ident) :
    checkAnnotations res = [] ↔ ∀ x a, t.Claims x a → (∃ d ∈ t.dimensions, d.name = a) ∧
      ∀ k, t.Reaches a k → t.Reaches x k ∧ ∀ ρ, t.Balanced ρ → ρ x k = ρ a k := by
  rw [checkAnnotations_nil_iff]
  have hn' : ((allItems (UnresolvedTemplates.expand (MagOps.one E) factor t)).map Item.ident).Nodup := by rwa [allItems_ident]
  constructor
  · intro h x a hxa
    obtain ⟨i, hi, rfl, hia⟩ := annotated_item.1 ((claims_iff (one := MagOps.one E) (factor := factor) t x a).2 hxa)
    obtain ⟨dm, g, _⟩ := hS.eqn i hi
    obtain ⟨ann, h1, h2, h3⟩ := h _ _ a ((BMap.mem_iff_get hS.sorted).2 g) hia
    refine ⟨?_, (annotation_eq_iff hc hS hn hg g h1).1 h3⟩
    obtain ⟨h4, h5⟩ := hS.only _ _ h1
    rcases mem_allItems.1 h4 with ⟨d, hd, he⟩ | ⟨v, hv, he⟩ | ⟨c, hc', he⟩
    · exact ⟨d, hd, by rw [← h5, he]; rfl⟩
    · rw [he] at h2; cases hw' : v.definition <;> simp [Item.kind, Item.ofUnit, hw'] at h2
    · rw [he] at h2; simp [Item.kind, Item.ofConstant] at h2
  · intro h x it a hm ha
    have g := (BMap.mem_iff_get hS.sorted).1 hm
    obtain ⟨h4, h5⟩ := hS.only _ _ g
    obtain ⟨⟨d, hd, rfl⟩, h2⟩ := h x a ((claims_iff (one := MagOps.one E) (factor := factor) t x a).1 (annotated_item.2 ⟨_, h4, h5, ha⟩))
    obtain ⟨dm, g', _⟩ := hS.eqn (.ofDimension d) (mem_allItems.2 (.inl ⟨d, hd, rfl⟩))
    exact ⟨_, g', rfl, (annotation_eq_iff hc hS hn hg g g').2 h2⟩

/-- Base units have symbols, before and after resolution. -/
theorem baseSymbols_iff {factor : Prefix → M} {t : UnresolvedTemplates E M} {res : BMap (ResolvedItem E M)} {us : List (UnitDef E M)}
    (hS : Solution (allItems (UnresolvedTemplates.expand (MagOps.one E) factor t)) res) (hu : getUnits res = some us) :
    checkBaseSymbols us = [] ↔ ∀ v ∈ t.units, ∀ d, v.definition = .base d → v.symbol ≠ none := by
  rw [checkBaseSymbols_nil]
  have hm := (units_of_solution hS hu).1
  constructor
  · intro h v hv d hd hs
    obtain ⟨x, hx, _, h2, h3⟩ := expand_main (one := MagOps.one E) (factor := factor) v
    have hxm : x ∈ (UnresolvedTemplates.expand (MagOps.one E) factor t).units := List.mem_flatMap.2 ⟨v, hv, hx⟩
    obtain ⟨dm, g, _⟩ := hS.eqn (.ofUnit x) (mem_allItems.2 (.inr (.inl ⟨x, hxm, rfl⟩)))
    have := h (x.toDef dm) ((hm _).2 ⟨x, hxm, dm, g, rfl⟩) (by simp [UnitEntry.toDef, h2, hd])
    simp [UnitEntry.toDef, h3, hs] at this
  · intro h U hU hb
    obtain ⟨x, hx, dm, g, rfl⟩ := (hm U).1 hU
    obtain ⟨v, hv, hx⟩ := List.mem_flatMap.1 (show x ∈ t.units.flatMap (fun v => v.expand (MagOps.one E) factor) from hx)
    rcases expand_cases hx with ⟨_, hd, hs⟩ | ⟨_, f, hd⟩
    · cases hr : v.definition with
      | base d =>
        have := h v hv d hr
        simp only [UnitEntry.toDef, hs]
        exact Option.isSome_iff_ne_none.2 this
      | expression e => simp [UnitEntry.toDef, hd, hr] at hb
    · simp [UnitEntry.toDef, hd, variantDef] at hb

theorem singleIdent_nil_iff {l : List Str} {n d : Str} : (getSingleIdent l n d).2 = [] ↔ l.length = 1 := by
  unfold getSingleIdent
  match l with
  | [] => simp
  | [_] => simp
  | _ :: _ :: _ => simp

theorem mem_written {t : UnresolvedTemplates E M} {x : Str} : x ∈ t.written.map Prod.fst ↔ (∃ d ∈ t.dimensions, d.name = x) ∨ t.Measures x := by
  unfold Unresolved.written Unresolved.Measures
  simp only [List.map_append, List.mem_append, List.map_map, List.mem_map, List.map_flatMap, List.mem_flatMap, List.map_cons, List.mem_cons,
    Function.comp_apply, or_assoc]
  refine or_congr Iff.rfl (or_congr ⟨?_, ?_⟩ ⟨?_, ?_⟩)
  · rintro ⟨v, hv, h | ⟨n, hn, rfl⟩⟩
    · exact ⟨v, hv, .inl h⟩
    · exact ⟨v, hv, .inr hn⟩
  · rintro ⟨v, hv, h | h⟩
    · exact ⟨v, hv, .inl h⟩
    · exact ⟨v, hv, .inr ⟨x, h, rfl⟩⟩
  · rintro ⟨c, hc, h⟩; exact ⟨c, hc, h.symm⟩
  · rintro ⟨c, hc, h⟩; exact ⟨c, hc, h.symm⟩

/-- All names mentioned are defined. -/
theorem Unresolved.WellFormed.defined {t : UnresolvedTemplates E M} (w : t.WellFormed) :
    ∀ x rs, (x, rs) ∈ t.written → ∀ y ∈ rs, y ∈ t.written.map Prod.fst := by
  intro x rs h y hy
  rw [mem_written]
  unfold Unresolved.written at h
  simp only [List.mem_append, List.mem_map, List.mem_flatMap, List.mem_cons, Prod.mk.injEq] at h
  rcases h with (⟨d, hd, _, rfl⟩ | ⟨v, hv, ⟨_, rfl⟩ | ⟨n, hn, _, rfl⟩⟩) | ⟨c, hc, _, rfl⟩
  · exact .inl (w.dimensions d hd y hy)
  · unfold UnitTemplate.uses at hy
    cases hr : v.definition with
    | base d =>
      rw [hr] at hy
      simp only [List.mem_singleton] at hy
      subst hy
      obtain ⟨_, b, hb, h1, _⟩ := w.baseUnits v hv _ hr
      exact .inl ⟨b, hb, h1⟩
    | expression e => rw [hr] at hy; exact .inr (w.units v hv e hr y hy)
  · simp only [List.mem_singleton] at hy
    subst hy
    exact .inr (.inl ⟨v, hv, .inl rfl⟩)
  · exact .inr (w.constants c hc y hy)

theorem Unresolved.WellFormed.grounded {t : UnresolvedTemplates E M} (w : t.WellFormed) {x : Str} (hx : x ∈ t.written.map Prod.fst) :
    Grounded t.written x := by
  by_contra hng
  obtain ⟨y, hxy, h | h⟩ := (not_grounded_iff w.names hx).1 hng
  · exact w.acyclic y h
  · refine h ?_
    obtain ⟨z, _, rs, hz, hy⟩ := Relation.TransGen.tail'_iff.1 hxy
    exact w.defined z rs hz y hy

/-- **C80.** On a run that does not overflow, with exponent literals in normal form: nothing is reported if and only if the statements are a well-formed unit
system. -/
theorem C80_accepted_iff (factor : Prefix → M) (t : UnresolvedTemplates E M) (defs : Defs E M) (ds : List Diag)
    (run : runUnitSystem factor t = some (defs, ds)) (canonical : t.CanonicalExponents) : ds = [] ↔ t.WellFormed := by
  have bases : baseOf (UnresolvedTemplates.expand (MagOps.one E) factor t).units =
      t.units.filterMap UnitTemplate.baseOf := by
    rw [show (UnresolvedTemplates.expand (MagOps.one E) factor t).units = t.units.flatMap (fun v => v.expand (MagOps.one E) factor) from rfl, baseOf_flatMap]
    refine List.filterMap_congr fun v _ => ?_
    unfold UnitTemplate.baseOf
    cases v.definition <;> rfl
  have memBase : ∀ d, d ∈ baseOf (UnresolvedTemplates.expand (MagOps.one E) factor t).units ↔ ∃ v ∈ t.units, v.definition = .base d := by
    intro d
    rw [bases, List.mem_filterMap]
    unfold UnitTemplate.baseOf
    constructor
    · rintro ⟨v, hv, h⟩
      refine ⟨v, hv, ?_⟩
      cases hr : v.definition with
      | base b => rw [hr] at h; simp at h; rw [h]
      | expression e => rw [hr] at h; simp at h
    · rintro ⟨v, hv, h⟩; exact ⟨v, hv, by rw [h]⟩
  have namesPerm : (UnresolvedTemplates.expand (MagOps.one E) factor t).names.Perm (t.written.map Prod.fst) := by
    rw [← names_eq_definitions]
    exact (written_perm t).map Prod.fst
  constructor
  · rintro rfl
    obtain ⟨res, h⟩ := accepted_of_run run
    have isBase : ∀ v ∈ t.units, ∀ d, v.definition = .base d → ∃ b ∈ t.dimensions, b.name = d ∧ b.rhs = .base () := by
      intro v hv d hd
      obtain ⟨b, hb, h1, h2⟩ := h.base_units.1 d ((memBase d).2 ⟨v, hv, hd⟩)
      refine ⟨b, hb, h2, ?_⟩
      unfold DimensionEntry.isBase at h1
      cases hr : b.rhs with
      | base _ => rfl
      | expression ex => rw [hr] at h1; simp at h1
    have hk := (kindsOk_iff fun v hv d hd => (isBase v hv d hd).imp fun b hb => ⟨hb.1, hb.2.1⟩).1 ((kinds_iff h.nodup h.defined).1 h.kinds)
    have hg : ∀ i ∈ allItems (UnresolvedTemplates.expand (MagOps.one E) factor t),
        Grounded (itemDefs (allItems (UnresolvedTemplates.expand (MagOps.one E) factor t))) i.ident := by
      intro i hi
      rw [itemDefs_allItems]
      exact h.grounded _ (by rw [← allItems_ident]; exact List.mem_map_of_mem (f := Item.ident) hi)
    have hsym := (baseSymbols_iff h.solution h.units).1 h.base_symbols
    refine ⟨?_, ?_, namesPerm.nodup_iff.1 h.nodup, (symbols_perm t).nodup_iff.1 h.symbols, hk.1, hk.2.1, hk.2.2,
      fun v hv d hd => ⟨hsym v hv d hd, isBase v hv d hd⟩, ?_, ?_, (annotations_iff canonical h.solution h.nodup hg).1 h.annotations⟩
    · rw [show t.quantityTypes = [defs.quantityType] from h.quantity]; rfl
    · rw [show t.dimensionTypes = [defs.dimensionType] from h.dimension]; rfl
    · rw [← bases]; exact h.base_units.2
    · intro x hx
      rw [← dependsOn_written (one := MagOps.one E) (factor := factor)] at hx
      have hn : ((UnresolvedTemplates.expand (MagOps.one E) factor t).definitions.map Prod.fst).Nodup := by
        rw [names_eq_definitions]; exact h.nodup
      obtain ⟨_, ⟨rs, hrs, _⟩, _⟩ := Relation.TransGen.head'_iff.1 hx
      refine grounded_no_cycle hn (h.grounded x ?_) hx
      rw [← names_eq_definitions]; exact List.mem_map_of_mem (f := Prod.fst) hrs
  · intro w
    have hn : (UnresolvedTemplates.expand (MagOps.one E) factor t).names.Nodup := namesPerm.nodup_iff.2 w.names
    have hdef : ∀ i ∈ allItems (UnresolvedTemplates.expand (MagOps.one E) factor t), ∀ y ∈ i.refs,
        y ∈ (UnresolvedTemplates.expand (MagOps.one E) factor t).names := by
      intro i hi y hy
      rw [namesPerm.mem_iff]
      refine w.defined i.ident i.refs ?_ y hy
      rw [← (written_perm (one := MagOps.one E) (factor := factor) t).mem_iff, ← itemDefs_allItems]
      exact mem_itemDefs.2 ⟨i, hi, rfl, rfl⟩
    have hg : ∀ i ∈ allItems (UnresolvedTemplates.expand (MagOps.one E) factor t),
        Grounded (itemDefs (allItems (UnresolvedTemplates.expand (MagOps.one E) factor t))) i.ident := by
      intro i hi
      rw [itemDefs_allItems]
      have hx : i.ident ∈ (UnresolvedTemplates.expand (MagOps.one E) factor t).names := by
        rw [← allItems_ident]; exact List.mem_map_of_mem (f := Item.ident) hi
      by_contra hng
      obtain ⟨y, hxy, h⟩ := (not_grounded_iff (by rwa [names_eq_definitions]) (by rwa [names_eq_definitions])).1 hng
      rw [dependsOn_written] at hxy h
      rcases h with h | h
      · exact w.acyclic y h
      · rw [names_eq_definitions, namesPerm.mem_iff] at h
        obtain ⟨z, _, rs, hz, hy⟩ := Relation.TransGen.tail'_iff.1 hxy
        exact h (w.defined z rs hz y hy)
    have hu : (filterUndefined (allItems (UnresolvedTemplates.expand (MagOps.one E) factor t))).2 = [] := by
      rw [filterUndefined_nil, allItems_ident]; exact hdef
    have hau := allItems_autoOk (expand_autoOk (MagOps.one E) factor t)
    have hn' : ((allItems (UnresolvedTemplates.expand (MagOps.one E) factor t)).map Item.ident).Nodup := by rwa [allItems_ident]
    obtain ⟨res, d4, hl, hd, hus, hcs, _, _, _, hds⟩ := resolveDefs_diags (show resolveDefs _ = _ from run)
    have hsurv : survivors (allItems (UnresolvedTemplates.expand (MagOps.one E) factor t)) =
        allItems (UnresolvedTemplates.expand (MagOps.one E) factor t) := by
      unfold survivors
      rw [filterUndefined_eq hu, filterAutogenerated_eq hau, filterAutogenerated_eq hau, filterAutogenerated_eq hau]
    have hd4 : d4 = [] := by
      obtain ⟨done, l', hr, _, hd4⟩ := resolveLoop_run hl
      rw [hd4]
      cases l' with
      | nil => rfl
      | cons a l' =>
        exfalso
        have hx : ∃ xs, Diag.unresolvable xs ∈ ds ∧ a.ident ∈ xs := by
          refine ⟨(a :: l').map Item.ident, ?_, by simp⟩
          rw [hds, hd4]; simp
        have := ((run_outcome run hn).2 a.ident).1 hx
        obtain ⟨hm, hng⟩ := this
        rw [hsurv] at hm
        obtain ⟨i, hi, hia⟩ := List.mem_map.1 hm
        rw [← itemDefs_allItems, ← hia] at hng
        exact hng (hg i hi)
    subst hd4
    rw [hsurv] at hl
    have hS := (loop_solution hn' hl).1
    rw [filterUndefined_eq hu, filterAutogenerated_eq hau, filterAutogenerated_eq hau, hu] at hds
    have e1 := singleIdent_nil_iff (n := str!"quantity type") (d := str!"Quantity") |>.2 w.quantityType
    have e2 := singleIdent_nil_iff (n := str!"dimension type") (d := str!"Dimension") |>.2 w.dimensionType
    have e3 : checkBaseUnits (((UnresolvedTemplates.expand (MagOps.one E) factor t).dimensions.filter DimensionEntry.isBase).map
        DimensionEntry.name) (fun _ => 0) (UnresolvedTemplates.expand (MagOps.one E) factor t).units = [] := by
      rw [checkBaseUnits_nil]
      refine ⟨fun d hd => ?_, fun d _ => ?_⟩
      · obtain ⟨v, hv, hvd⟩ := (memBase d).1 hd
        obtain ⟨_, b, hb, h1, h2⟩ := w.baseUnits v hv d hvd
        exact List.mem_map.2 ⟨b, List.mem_filter.2 ⟨hb, by simp [DimensionEntry.isBase, h2]⟩, h1⟩
      · rw [bases, Nat.zero_add]
        exact List.nodup_iff_count_le_one.1 w.oneBaseUnit d
    have e4 := checkSymbols_nil.2 ((symbols_perm (one := MagOps.one E) (factor := factor) t).nodup_iff.2 w.symbols)
    have e5 := multiplyDefined_nil.2 hn'
    have e6 := (checkKinds_nil hn').2 ((kinds_iff hn hdef).2 ((kindsOk_iff fun v hv d hd =>
      (w.baseUnits v hv d hd).2.imp fun b hb => ⟨hb.1, hb.2.1⟩).2 ⟨w.dimensions, w.units, w.constants⟩))
    have e7 := (annotations_iff canonical hS hn hg).2 w.annotations
    have e8 := (baseSymbols_iff hS hus).2 fun v hv d hd => (w.baseUnits v hv d hd).1
    rw [hds, e3, e4, e5, e6, e7, e8]
    change (getSingleIdent t.quantityTypes _ _).2 ++ (getSingleIdent t.dimensionTypes _ _).2 ++ [] ++ [] ++ _ ++ [] = []
    rw [e1, e2]; rfl

/-- With integer exponents every literal is in normal form. -/
theorem canonicalExponents_int (t : UnresolvedTemplates Int M) : t.CanonicalExponents :=
  have hP : ∀ e : Int, (Canon : Int → Prop) e := fun _ => trivial
  ⟨fun d _ => by cases d.rhs <;> first | trivial | exact Expr.allExp_true hP _,
    fun d _ => by cases d.definition <;> first | trivial | exact Expr.allExp_true hP _, fun c _ => Expr.allExp_true hP _⟩

/-- **C80, the equations have one solution.** In a well-formed system the statements, read as equations between dimensions, determine the dimension of every
defined name. -/
theorem C80_unique (t : UnresolvedTemplates E M) (w : t.WellFormed) (ρ ρ' : Str → Str → ℚ) (h : t.Balanced ρ) (h' : t.Balanced ρ') (x k : Str)
    (defined : x ∈ t.written.map Prod.fst) : ρ x k = ρ' x k := by
  have hx := w.grounded defined
  have hm : ∀ y rs, (y, rs) ∈ t.written ↔ (y, rs) ∈ itemDefs (allItems (UnresolvedTemplates.expand (MagOps.one E) (fun _ => MagOps.one E) t)) := by
    intro y rs
    rw [itemDefs_allItems, (written_perm t).mem_iff]
  have : Grounded (itemDefs (allItems (UnresolvedTemplates.expand (MagOps.one E) (fun _ => MagOps.one E) t))) x := by
    clear defined
    induction hx with
    | intro x rs hx _ ih => exact .intro x rs ((hm _ _).1 hx) ih
  exact itemsBalanced_unique (balanced_iff.1 h) (balanced_iff.1 h') this k

/-- **C80, the solution.** Accepted systems have a solution, and it is what the generated items have: the dimension of every generated dimension, unit and
constant is the one the equations determine. -/
theorem C80_solution (factor : Prefix → M) (t : UnresolvedTemplates E M) (defs : Defs E M) (accepted : runUnitSystem factor t = some (defs, []))
    (canonical : t.CanonicalExponents) :
    ∃ ρ, t.Balanced ρ ∧ (∀ D ∈ defs.dimensions, ∀ k, D.dims.expo k = ρ D.name k) ∧ (∀ U ∈ defs.units, ∀ k, U.dims.expo k = ρ U.name k) ∧
      (∀ C ∈ defs.constants, ∀ k, C.dims.expo k = ρ C.name k) := by
  obtain ⟨res, h⟩ := accepted_of_run accepted
  have hg : ∀ i ∈ allItems (UnresolvedTemplates.expand (MagOps.one E) factor t),
      Grounded (itemDefs (allItems (UnresolvedTemplates.expand (MagOps.one E) factor t))) i.ident := by
    intro i hi
    rw [itemDefs_allItems]
    exact h.grounded _ (by rw [← allItems_ident]; exact List.mem_map_of_mem (f := Item.ident) hi)
  refine ⟨resolvedExpo res, balanced_iff.2 (resolved_balanced h.solution (allItems_good (goodExponents_of_canonical canonical)) hg),
    fun D hD k => ?_, fun U hU k => ?_, fun C hC k => ?_⟩
  · obtain ⟨d, _, dm, g, rfl⟩ := h.dim_from hD
    simp only [resolvedExpo, g]
  · obtain ⟨d, _, dm, g, rfl⟩ := h.unit_from hU
    simp only [resolvedExpo, UnitEntry.toDef, g]
  · obtain ⟨d, _, dm, g, rfl⟩ := h.const_from hC
    simp only [resolvedExpo, g]

/-- **C80, exactly.** With integer exponents (the macro stores them as `i64`): the macro accepts the statements if and only if they are a well-formed unit system
and their equations have a solution with no step of computing it outside the range of `i64`. -/
theorem C80_exactly {M : Type} [MagOps Int M] (factor : Prefix → M) (t : UnresolvedTemplates Int M) :
    (∃ defs, runUnitSystem factor t = some (defs, [])) ↔ t.WellFormed ∧ ∃ ρ, t.Balanced ρ ∧ t.Fits ρ := by
  constructor
  · rintro ⟨defs, run⟩
    refine ⟨(C80_accepted_iff factor t defs [] run (canonicalExponents_int t)).1 rfl, ?_⟩
    obtain ⟨res, h⟩ := accepted_of_run run
    have hg : ∀ i ∈ allItems (UnresolvedTemplates.expand (MagOps.one Int) factor t),
        Grounded (itemDefs (allItems (UnresolvedTemplates.expand (MagOps.one Int) factor t))) i.ident := by
      intro i hi
      rw [itemDefs_allItems]
      exact h.grounded _ (by rw [← allItems_ident]; exact List.mem_map_of_mem (f := Item.ident) hi)
    have hb := resolved_balanced h.solution (allItems_good (goodExponents_of_canonical (canonicalExponents_int t))) hg
    refine ⟨resolvedExpo res, balanced_iff.2 hb, items_fits (one := MagOps.one Int) (factor := factor) fun i hi => ?_⟩
    exact solution_expr_fits h.solution hb (allItems_literalsFit _) hg hi (by rw [allItems_ident]; exact h.nodup)
  · rintro ⟨w, ρ, hb, hf⟩
    obtain ⟨⟨defs, ds⟩, run⟩ := Option.isSome_iff_exists.1 (runUnitSystem_isSome (factor := factor) hb hf)
    have := (C80_accepted_iff factor t defs ds run (canonicalExponents_int t)).2 w
    subst this
    exact ⟨defs, run⟩

/-- **C80, from the tokens.** Whenever the macro gets to resolving (no syntax error, no overflow), its input is a list of statements, and, read with integer
exponents, the macro reports nothing if and only if these statements are a well-formed unit system. -/
theorem C80_macro {M : Type} [MagOps Int M] (mag : Number → M) (factor : Prefix → M) (ts : List Tok) (defs : Defs Int M) (ds : List Diag)
    (run : unitSystem (E := Int) mag factor ts = .done (defs, ds)) :
    ∃ l written t, Separated (WrittenEntry (ReadExponent.rational Int)) ';' l ts ∧ Collects l written ∧ readTemplates (E := Int) mag written = some t ∧
      (ds = [] ↔ t.WellFormed) := by
  unfold unitSystem at run
  split at run
  · simp at run
  · rename_i written h1
    split at run
    · simp at run
    · rename_i t h2
      split at run
      · simp at run
      · rename_i r h3
        injection run with run
        subst run
        obtain ⟨l, h4, h5⟩ := (C42_iff _ ts written).1 h1
        exact ⟨l, written, t, h4, h5, h2, C80_accepted_iff factor t defs ds h3 (canonicalExponents_int t)⟩

theorem forall₂_right {α β : Type} {R : α → β → Prop} {l : List α} {l' : List β} (h : List.Forall₂ R l l') {b : β} (hb : b ∈ l') : ∃ a ∈ l, R a b := by
  induction h with
  | nil => simp at hb
  | cons hab _ ih =>
    rcases List.mem_cons.1 hb with rfl | hb
    · exact ⟨_, by simp, hab⟩
    · obtain ⟨a, ha, h⟩ := ih hb
      exact ⟨a, by simp [ha], h⟩

mutual
theorem Expr.mapExp_canon {T : Type} (e : Expr T ExpSyn) (e' : Expr T Ratio) (h : e.mapExp ReadExponent.read = some e')
    (hx : ∀ x ∈ e.exponents, 0 < x.denom.getD 1) : e'.AllExp (Canon : Ratio → Prop) := by
  match e with
  | .value v =>
    simp only [Expr.mapExp, Option.bind_eq_bind, Option.pure_def, Option.bind_eq_some_iff, Option.some.injEq] at h
    obtain ⟨v', hv, rfl⟩ := h
    exact Factor.mapExp_canon v v' hv (by simpa [Expr.exponents] using hx)
  | .binary l o r =>
    simp only [Expr.mapExp, Option.bind_eq_bind, Option.pure_def, Option.bind_eq_some_iff, Option.some.injEq] at h
    obtain ⟨l', hl, r', hr, rfl⟩ := h
    simp only [Expr.exponents, List.mem_append] at hx
    exact ⟨Expr.mapExp_canon l l' hl fun x h => hx x (.inl h), Factor.mapExp_canon r r' hr fun x h => hx x (.inr h)⟩
theorem Factor.mapExp_canon {T : Type} (f : Factor T ExpSyn) (f' : Factor T Ratio) (h : f.mapExp ReadExponent.read = some f')
    (hx : ∀ x ∈ f.exponents, 0 < x.denom.getD 1) : f'.AllExp (Canon : Ratio → Prop) := by
  match f with
  | .value v =>
    simp only [Factor.mapExp, Option.some.injEq] at h
    subst h; trivial
  | .power v x =>
    simp only [Factor.mapExp, Option.bind_eq_bind, Option.pure_def, Option.bind_eq_some_iff, Option.some.injEq] at h
    obtain ⟨n, hn, rfl⟩ := h
    exact Ratio.new_pos hn (hx x (by simp [Factor.exponents]))
  | .paren e =>
    simp only [Factor.mapExp, Option.bind_eq_bind, Option.pure_def, Option.bind_eq_some_iff, Option.some.injEq] at h
    obtain ⟨e', he, rfl⟩ := h
    exact Expr.mapExp_canon e e' he hx
end

theorem readExpr_canon {C D : Type} {f : C → D} {e : Expr (Atom C) ExpSyn} {e' : Expr (Atom D) Ratio} (h : readExpr f e = some e')
    (hx : ∀ x ∈ e.exponents, 0 < x.denom.getD 1) : e'.AllExp (Canon : Ratio → Prop) :=
  Expr.mapExp_canon _ e' h (by rw [exponents_map]; exact hx)

theorem readDefinition_canon {B C D : Type} {f : C → D} {d : Definition ExpSyn B C} {d' : Definition Ratio B D} (h : readDefinition f d = some d')
    (hx : ∀ x ∈ d.exponents, 0 < x.denom.getD 1) : d'.AllExp (Canon : Ratio → Prop) := by
  cases d with
  | base b => simp only [readDefinition, Option.some.injEq] at h; subst h; trivial
  | expression e =>
    simp only [readDefinition, Option.map_eq_some_iff] at h
    obtain ⟨e', he, rfl⟩ := h
    exact readExpr_canon he hx

/-- Rational exponents are read in normal form if their denominators are positive. -/
theorem readTemplates_canonical {M : Type} {mag : Number → M} {w : UnresolvedTemplates ExpSyn Number} {t : UnresolvedTemplates Ratio M}
    (h : readTemplates mag w = some t) (hx : ∀ x ∈ w.exponents, 0 < x.denom.getD 1) : t.CanonicalExponents := by
  unfold readTemplates at h
  simp only [Option.bind_eq_bind, Option.pure_def, Option.bind_eq_some_iff, Option.some.injEq] at h
  obtain ⟨ds, hd, us, hu, cs, hc, rfl⟩ := h
  simp only [UnresolvedTemplates.exponents, List.mem_append, List.mem_flatMap] at hx
  refine ⟨fun d' hd' => ?_, fun u' hu' => ?_, fun c' hc' => ?_⟩
  · obtain ⟨d, hm, hr⟩ := forall₂_right (mapM_option_some hd) hd'
    obtain ⟨r, h1, rfl⟩ := Option.map_eq_some_iff.1 hr
    exact readDefinition_canon h1 fun x h => hx x (.inl (.inl ⟨d, hm, h⟩))
  · obtain ⟨d, hm, hr⟩ := forall₂_right (mapM_option_some hu) hu'
    obtain ⟨r, h1, rfl⟩ := Option.map_eq_some_iff.1 hr
    exact readDefinition_canon h1 fun x h => hx x (.inl (.inr ⟨d, hm, h⟩))
  · obtain ⟨d, hm, hr⟩ := forall₂_right (mapM_option_some hc) hc'
    obtain ⟨r, h1, rfl⟩ := Option.map_eq_some_iff.1 hr
    exact readExpr_canon h1 fun x h => hx x (.inr ⟨d, hm, h⟩)

/-- **C80, from the tokens, rational exponents.** The same with rational exponents, if no denominator written is zero or negative. -/
theorem C80_macro_rational {M : Type} [MagOps Ratio M] (mag : Number → M) (factor : Prefix → M) (ts : List Tok) (defs : Defs Ratio M) (ds : List Diag)
    (run : unitSystem (E := Ratio) mag factor ts = .done (defs, ds)) :
    ∃ l written t, Separated (WrittenEntry (ReadExponent.rational Ratio)) ';' l ts ∧ Collects l written ∧ readTemplates (E := Ratio) mag written = some t ∧
      ((∀ x ∈ written.exponents, 0 < x.denom.getD 1) → (ds = [] ↔ t.WellFormed)) := by
  unfold unitSystem at run
  split at run
  · simp at run
  · rename_i written h1
    split at run
    · simp at run
    · rename_i t h2
      split at run
      · simp at run
      · rename_i r h3
        injection run with run
        subst run
        obtain ⟨l, h4, h5⟩ := (C42_iff _ ts written).1 h1
        exact ⟨l, written, t, h4, h5, h2, fun hx => C80_accepted_iff factor t defs ds h3 (readTemplates_canonical h2 hx)⟩

/-- **C80, exactly, from the tokens.** Read with integer exponents, the macro accepts its input if and only if it is a list of statements with readable literals
that are a well-formed unit system whose equations have a solution in range. -/
theorem C80_macro_exactly {M : Type} [MagOps Int M] (mag : Number → M) (factor : Prefix → M) (ts : List Tok) :
    (∃ defs, unitSystem (E := Int) mag factor ts = .done (defs, [])) ↔
      ∃ l written t, Separated (WrittenEntry (ReadExponent.rational Int)) ';' l ts ∧ Collects l written ∧ readTemplates (E := Int) mag written = some t ∧
        t.WellFormed ∧ ∃ ρ, t.Balanced ρ ∧ t.Fits ρ := by
  constructor
  · rintro ⟨defs, run⟩
    obtain ⟨l, written, t, h1, h2, h3, h4⟩ := C80_macro mag factor ts defs [] run
    refine ⟨l, written, t, h1, h2, h3, (C80_exactly factor t).1 ⟨defs, ?_⟩⟩
    have h0 := (C42_iff (ReadExponent.rational Int) ts written).2 ⟨l, h1, h2⟩
    unfold unitSystem at run
    rw [h0] at run
    simp only [h3] at run
    cases hr : runUnitSystem factor t with
    | none => rw [hr] at run; simp at run
    | some r => rw [hr] at run; simp only [MacroResult.done.injEq] at run; rw [run]
  · rintro ⟨l, written, t, h1, h2, h3, h4⟩
    obtain ⟨defs, run⟩ := (C80_exactly factor t).2 h4
    refine ⟨defs, ?_⟩
    unfold unitSystem
    rw [(C42_iff (ReadExponent.rational Int) ts written).2 ⟨l, h1, h2⟩]
    simp only [h3, run]

end

/-! ### The hypotheses are met -/
section
attribute [local instance] Sample.exactMag
open Sample

/-- An accepted system is well formed. -/
example : sample.WellFormed := by
  obtain ⟨defs, h⟩ := sample_accepted
  exact (C80_accepted_iff _ _ _ _ h (canonicalExponents_int _)).1 rfl

/-- Its equations have a solution, so that the clause on annotations says something. -/
example : ∃ ρ, sample.Balanced ρ := by
  obtain ⟨defs, h⟩ := sample_accepted
  obtain ⟨ρ, h, _⟩ := C80_solution _ _ _ h (canonicalExponents_int _)
  exact ⟨ρ, h⟩

/-- A system with a cycle is not. -/
example : ¬ cyclic.WellFormed := by
  obtain ⟨defs, h⟩ := cyclic_run
  intro w
  have := (C80_accepted_iff _ _ _ _ h (canonicalExponents_int _)).2 w
  simp at this

/-- No exponent of the sample leaves the range. -/
example : ∃ ρ, sample.Balanced ρ ∧ sample.Fits ρ :=
  ((C80_exactly exactFactor sample).1 sample_accepted).2

/-- The exponents of the dimensions `L`, `A = L^(2^62)`, `B = A * A`. -/
def overflowingExpo (x k : Str) : ℚ :=
  if k = toSnakecase (str!"L") then if x = str!"L" then 1 else if x = str!"A" then 2 ^ 62 else if x = str!"B" then 2 ^ 63 else 0 else 0

/-- They solve the equations, but 2^63 is no `i64`: the macro overflows. -/
example : overflowing.Balanced overflowingExpo ∧ ¬ overflowing.Fits overflowingExpo := by
  have hA : str!"A" ≠ str!"L" := by decide
  have hB : str!"B" ≠ str!"L" := by decide
  have hAB : str!"B" ≠ str!"A" := by decide
  constructor
  · refine ⟨?_, ?_, ?_, ?_, ?_, ?_⟩
    · intro d hd hb k
      simp only [overflowing, List.mem_cons, List.not_mem_nil, or_false] at hd
      rcases hd with rfl | rfl | rfl
      · simp [overflowingExpo]
      · simp at hb
      · simp at hb
    · intro d hd e he k
      simp only [overflowing, List.mem_cons, List.not_mem_nil, or_false] at hd
      rcases hd with rfl | rfl | rfl
      · simp at he
      · simp only [Definition.expression.injEq] at he
        subst he
        simp only [overflowingExpo, if_neg hA, Expr.specExpo, Factor.specExpo, pw, Atom.expo, if_true]
        split
        · simp only [LawfulExponent.val]; norm_num
        · simp
      · simp only [Definition.expression.injEq] at he
        subst he
        simp only [overflowingExpo, if_neg hA, if_neg hB, if_neg hAB, Expr.specExpo, Factor.specExpo, v, Atom.expo, if_true]
        split <;> norm_num
    · intro v hv; simp [overflowing] at hv
    · intro v hv; simp [overflowing] at hv
    · intro v hv; simp [overflowing] at hv
    · intro v hv; simp [overflowing] at hv
  · intro h
    have := (h.dimension ⟨str!"B", .expression (.binary (.value (v (str!"A"))) .mul (v (str!"A")))⟩ (by simp [overflowing]) _ rfl).2.2
      (toSnakecase (str!"L"))
    simp only [overflowingExpo, if_neg hA, Expr.specExpo, Factor.specExpo, v, Atom.expo, if_true, InI64] at this
    norm_num at this

end
end Diman
