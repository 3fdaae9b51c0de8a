import Verif.Props.C10
import Verif.Props.C07
/-!
# C13 Base units are the unit of their base dimension
-/
set_option linter.unusedSectionVars false
namespace Diman
section
variable {E M : Type} [Exponent E] [LawfulExponent E] [MagOps E M]

theorem baseOf_expand (one : M) (factor : Prefix → M) (v : UnitTemplate E M) : baseOf (v.expand one factor) =
    (match v.definition with | .base d => [d] | .expression _ => []) := by
  have hnil : ∀ l : List (UnitEntry E M), (∀ x ∈ l, x.autogeneratedFrom.isSome = true) → baseOf l = [] := by
    intro l hl
    unfold baseOf
    rw [List.filterMap_eq_nil_iff]
    intro x hx
    simp [hl x hx]
  have happ : ∀ a b : List (UnitEntry E M), baseOf (a ++ b) = baseOf a ++ baseOf b := fun a b => List.filterMap_append
  unfold UnitTemplate.expand
  rw [List.flatMap_append, happ, hnil, List.nil_append]
  · simp only [List.flatMap_cons, List.flatMap_nil, List.append_nil, List.map_append, List.map_cons, List.map_nil]
    rw [happ, hnil, List.nil_append]
    · simp only [baseOf, List.filterMap_cons, List.filterMap_nil, UnitTemplate.expandOne, UnitTemplate.getDefinition,
        Option.isSome_none, Option.isNone_none, Bool.or_self, Bool.and_self, if_true, Bool.false_eq_true, if_false]
      cases v.definition <;> rfl
    · intro x hx
      simp only [List.mem_map] at hx
      obtain ⟨al, ⟨a, _, rfl⟩, rfl⟩ := hx
      simp [UnitTemplate.expandOne]
  · intro x hx
    simp only [List.mem_flatMap, List.mem_map] at hx
    obtain ⟨pre, ⟨p, _, rfl⟩, al, _, rfl⟩ := hx
    simp [UnitTemplate.expandOne]

theorem baseOf_flatMap (one : M) (factor : Prefix → M) (vs : List (UnitTemplate E M)) :
    baseOf (vs.flatMap fun v => v.expand one factor) =
      vs.filterMap fun v => match v.definition with | .base d => some d | .expression _ => none := by
  induction vs with
  | nil => rfl
  | cons v vs ih =>
    have happ : ∀ a b : List (UnitEntry E M), baseOf (a ++ b) = baseOf a ++ baseOf b := fun a b => List.filterMap_append
    rw [List.flatMap_cons, happ, ih, baseOf_expand, List.filterMap_cons]
    cases v.definition <;> rfl

/-- **C13.** In an accepted unit system: every base unit statement `#[base(d)]` is for a base dimension `d`; no two base unit
statements are for the same dimension; the generated unit is flagged as base, has conversion factor one, exponent one in its own
dimension and zero in every other; and no other generated unit is flagged as base. -/
theorem C13_base_units (factor : Prefix → M) (t : UnresolvedTemplates E M) (defs : Defs E M)
    (accepted : runUnitSystem factor t = some (defs, []))
    (literals : (UnresolvedTemplates.expand (MagOps.one E) factor t).GoodExponents) :
    (∀ v ∈ t.units, ∀ d, v.definition = .base d →
      (∃ e ∈ t.dimensions, e.name = d ∧ e.rhs = .base ()) ∧
      ∃ U ∈ defs.units, U.name = v.name ∧ U.isBase = true ∧ U.mag = MagOps.one E ∧
        ∀ k, U.dims.expo k = if k = toSnakecase d then 1 else 0) ∧
    (t.units.filterMap fun v => match v.definition with | .base d => some d | .expression _ => none).Nodup ∧
    (∀ U ∈ defs.units, U.isBase = true → ∃ v ∈ t.units, v.name = U.name ∧ ∃ d, v.definition = .base d) := by
  obtain ⟨res, h⟩ := accepted_of_run accepted
  obtain ⟨hdims, hunits, _⟩ := C07_equations factor t defs accepted literals
  have hself : ∀ v ∈ t.units, (⟨v.name, v.symbol, v.annotation, v.definition, none⟩ : UnitEntry E M) ∈
      (UnresolvedTemplates.expand (MagOps.one E) factor t).units := by
    intro v hv
    simp only [UnresolvedTemplates.expand, List.mem_flatMap]
    exact ⟨v, hv, v.self_mem_expand⟩
  have hbase_iff : baseOf (UnresolvedTemplates.expand (MagOps.one E) factor t).units =
      t.units.filterMap fun v => match v.definition with | .base d => some d | .expression _ => none := by
    exact baseOf_flatMap _ _ _
  refine ⟨fun v hv d hd => ?_, ?_, fun U hU hb => ?_⟩
  · have hmem : d ∈ baseOf (UnresolvedTemplates.expand (MagOps.one E) factor t).units := by
      rw [hbase_iff, List.mem_filterMap]
      exact ⟨v, hv, by rw [hd]⟩
    obtain ⟨e, he, heb, hen⟩ := h.base_units.1 d hmem
    have her : e.rhs = .base () := by
      unfold DimensionEntry.isBase at heb
      cases hr : e.rhs with
      | base b => rfl
      | expression ex => rw [hr] at heb; simp at heb
    refine ⟨⟨e, he, hen, her⟩, ?_⟩
    obtain ⟨dm, g, _, hm⟩ := h.unit_val (hself v hv)
    refine ⟨_, hm, rfl, by simp [UnitEntry.toDef, hd], ?_⟩
    obtain ⟨U', hU', hn', heq⟩ := hunits _ (hself v hv)
    have hUU : U' = (⟨v.name, v.symbol, v.annotation, v.definition, none⟩ : UnitEntry E M).toDef dm :=
      List.inj_on_of_nodup_map h.unit_nodup hU' hm hn'
    subst hUU
    simp only [hd] at heq
    refine ⟨by simpa [hd] using heq.2, fun k => ?_⟩
    have h1 := heq.1 k
    obtain ⟨D, hD, hDn, hDe⟩ := hdims e he
    have := hDe k
    rw [her] at this
    have hde := h.dimExpo_eq hD k
    rw [hDn, hen] at hde
    rw [hd]
    rw [h1, hde, this, hen]
  · rw [← hbase_iff]; exact h.base_units.2
  · obtain ⟨x, hx, dm, g, rfl⟩ := h.unit_from hU
    have hxd : ∃ d, x.definition = .base d := by
      cases hr : x.definition with
      | base d => exact ⟨d, rfl⟩
      | expression e => simp [UnitEntry.toDef, hr] at hb
    obtain ⟨d, hd⟩ := hxd
    have hauto := expand_base hx hd
    simp only [UnresolvedTemplates.expand, List.mem_flatMap] at hx
    obtain ⟨v, hv, hxv⟩ := hx
    obtain ⟨pre, al, _, _, rfl⟩ := UnitTemplate.mem_expand.1 hxv
    rw [UnitTemplate.expandOne_auto] at hauto
    have hpa : pre = none ∧ al = none := by cases pre <;> cases al <;> simp_all
    obtain ⟨rfl, rfl⟩ := hpa
    exact ⟨v, hv, rfl, d, hd⟩

/-- **C13, errors.** Conversely a second base unit for a dimension, or a base unit for something that is not a base dimension,
always yields an error naming the unit; the first base unit of a base dimension yields none. -/
theorem C13_reports (factor : Prefix → M) (t : UnresolvedTemplates E M) (defs : Defs E M) (ds : List Diag)
    (run : runUnitSystem factor t = some (defs, ds)) :
    ((∀ v ∈ t.units, ∀ d, v.definition = .base d → ∃ e ∈ t.dimensions, e.name = d ∧ e.rhs = .base ()) ∧
      (t.units.filterMap fun v => match v.definition with | .base d => some d | .expression _ => none).Nodup) ↔
    ((∀ d u, Diag.multipleBaseUnits d u ∉ ds) ∧ ∀ d u, Diag.baseUnitForNonBase d u ∉ ds) := by
  obtain ⟨res, d4, _, _, _, _, _, _, _, _, hb, _⟩ := diag_origin run
  have hbase_iff : baseOf (UnresolvedTemplates.expand (MagOps.one E) factor t).units =
      t.units.filterMap fun v => match v.definition with | .base d => some d | .expression _ => none := baseOf_flatMap _ _ _
  have hnil : checkBaseUnits (((UnresolvedTemplates.expand (MagOps.one E) factor t).dimensions.filter DimensionEntry.isBase).map
      DimensionEntry.name) (fun _ => 0) (UnresolvedTemplates.expand (MagOps.one E) factor t).units = [] ↔
      ((∀ d u, Diag.multipleBaseUnits d u ∉ ds) ∧ ∀ d u, Diag.baseUnitForNonBase d u ∉ ds) := by
    constructor
    · intro h
      rw [h] at hb
      exact ⟨fun d u hm => by have := (hb _ (.inl rfl)).1 hm; simp at this,
        fun d u hm => by have := (hb _ (.inr rfl)).1 hm; simp at this⟩
    · rintro ⟨h1, h2⟩
      rw [List.eq_nil_iff_forall_not_mem]
      intro x hx
      have htag := tag_checkBaseUnits hx
      have hm := (hb _ htag).2 hx
      cases x <;> simp [Diag.tag] at htag
      · exact h1 _ _ hm
      · exact h2 _ _ hm
  rw [← hnil, checkBaseUnits_nil, hbase_iff, List.nodup_iff_count_le_one]
  refine and_congr ?_ ?_
  · simp only [List.mem_filterMap, List.mem_map, List.mem_filter]
    constructor
    · rintro h d ⟨v, hv, hd⟩
      cases hr : v.definition with
      | base d' =>
        rw [hr] at hd; simp at hd; subst hd
        obtain ⟨e, he, hen, her⟩ := h v hv d' hr
        exact ⟨e, ⟨he, by simp [DimensionEntry.isBase, her]⟩, hen⟩
      | expression _ => rw [hr] at hd; simp at hd
    · intro h v hv d hd
      obtain ⟨e, ⟨he, heb⟩, hen⟩ := h d ⟨v, hv, by rw [hd]⟩
      refine ⟨e, he, hen, ?_⟩
      unfold DimensionEntry.isBase at heb
      cases hr : e.rhs with
      | base b => rfl
      | expression ex => rw [hr] at heb; simp at heb
  · constructor
    · intro h d _; have := h d; omega
    · intro h d
      by_cases hd : d ∈ (t.units.filterMap fun v => match v.definition with | .base d => some d | .expression _ => none)
      · have := h d hd; omega
      · rw [List.count_eq_zero.2 hd]; omega

end

-- The hypotheses are met by the example system of the repository's tests, which has four base units.
section
attribute [local instance] Sample.exactMag
example : (∃ defs, runUnitSystem Sample.exactFactor Sample.sample = some (defs, [])) ∧
    (UnresolvedTemplates.expand 1 Sample.exactFactor Sample.sample).GoodExponents ∧
    (Sample.sample.units.filterMap fun v => match v.definition with | .base d => some d | .expression _ => none).length = 4 :=
  ⟨Sample.sample_accepted, C07_goodExponents_int _, by decide⟩
end
end Diman
