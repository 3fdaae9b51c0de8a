import Verif.Props.C07
/-!
# C08 Definition order does not matter
-/
set_option linter.unusedSectionVars false
namespace Diman

/-- `t'` consists of the statements of `t`, each kind in some other order. -/
structure Reordered {E M U : Type} (t t' : Unresolved E M U) : Prop where
  dimensionTypes : t.dimensionTypes.Perm t'.dimensionTypes
  quantityTypes : t.quantityTypes.Perm t'.quantityTypes
  dimensions : t.dimensions.Perm t'.dimensions
  units : t.units.Perm t'.units
  constants : t.constants.Perm t'.constants

section
variable {E M : Type} [Exponent E] [MagOps E M]

theorem Reordered.symm {U : Type} {t t' : Unresolved E M U} (h : Reordered t t') : Reordered t' t :=
  ⟨h.dimensionTypes.symm, h.quantityTypes.symm, h.dimensions.symm, h.units.symm, h.constants.symm⟩

theorem Reordered.expand {one : M} {factor : Prefix → M} {t t' : UnresolvedTemplates E M} (h : Reordered t t') :
    Reordered (UnresolvedTemplates.expand one factor t) (UnresolvedTemplates.expand one factor t') :=
  ⟨h.dimensionTypes, h.quantityTypes, h.dimensions, h.units.flatMap_right _, h.constants⟩

theorem Reordered.accepted {u u' : UnresolvedDefs E M} (hp : Reordered u u') {defs : Defs E M} {res : BMap (ResolvedItem E M)}
    (h : Accepted u defs res) : Accepted u' { defs with baseDimensions := baseDimensions u'.dimensions } res := by
  have hitems : ∀ i, i ∈ allItems u' ↔ i ∈ allItems u := by
    intro i
    simp only [mem_allItems, hp.dimensions.mem_iff, hp.units.mem_iff, hp.constants.mem_iff]
  have hnames : u.names.Perm u'.names :=
    ((hp.dimensions.map _).append (hp.units.map _)).append (hp.constants.map _)
  have hdefs : u.definitions.Perm u'.definitions :=
    ((hp.dimensions.map _).append (hp.units.map _)).append (hp.constants.map _)
  have hbase : (baseOf u.units).Perm (baseOf u'.units) := hp.units.filterMap _
  exact {
    quantity := List.perm_singleton.1 (by rw [← h.quantity]; exact hp.quantityTypes.symm)
    dimension := List.perm_singleton.1 (by rw [← h.dimension]; exact hp.dimensionTypes.symm)
    base_units := ⟨fun d hd => by
        obtain ⟨e, h1, h2, h3⟩ := h.base_units.1 d (hbase.mem_iff.2 hd)
        exact ⟨e, hp.dimensions.mem_iff.1 h1, h2, h3⟩, hbase.nodup_iff.1 h.base_units.2⟩
    symbols := (hp.units.filterMap _).nodup_iff.1 h.symbols
    base_dims := rfl
    defined := fun i hi x hx => hnames.mem_iff.1 (h.defined i ((hitems i).1 hi) x hx)
    nodup := hnames.nodup_iff.1 h.nodup
    kinds := fun i hi j hj => h.kinds i ((hitems i).1 hi) j ((hitems j).1 hj)
    grounded := fun x hx => grounded_mono (fun p hpp => hdefs.mem_iff.1 hpp) (h.grounded x (hnames.mem_iff.2 hx))
    solution := ⟨h.solution.sorted, fun i hi => h.solution.eqn i ((hitems i).1 hi),
      fun k r hk => ⟨(hitems _).2 (h.solution.only k r hk).1, (h.solution.only k r hk).2⟩⟩
    annotations := h.annotations
    dims := h.dims
    units := h.units
    constants := h.constants
    base_symbols := h.base_symbols }

/-- **C08.** If a unit system is accepted, every reordering of its statements is accepted too, and generates exactly the same
dimensions, units and constants (same names, dimension maps and conversion factors, in the same order) and the same type names;
the list of base dimensions (the fields of the dimension type) is the same up to order. -/
theorem C08_order_irrelevant (factor : Prefix → M) (t t' : UnresolvedTemplates E M) (reordered : Reordered t t')
    (defs : Defs E M) (accepted : runUnitSystem factor t = some (defs, [])) :
    ∃ defs', runUnitSystem factor t' = some (defs', []) ∧ defs'.dimensions = defs.dimensions ∧ defs'.units = defs.units ∧
      defs'.constants = defs.constants ∧ defs'.quantityType = defs.quantityType ∧ defs'.dimensionType = defs.dimensionType ∧
      defs'.baseDimensions.Perm defs.baseDimensions := by
  obtain ⟨res, h⟩ := accepted_of_run accepted
  have hr := reordered.expand (one := MagOps.one E) (factor := factor)
  refine ⟨_, (accepted_iff (expand_autoOk _ _ t')).2 ⟨res, hr.accepted h⟩, rfl, rfl, rfl, rfl, rfl, ?_⟩
  rw [h.base_dims]
  exact ((hr.symm.dimensions.filter _).map _)

/-- Acceptance itself does not depend on the order. -/
theorem C08_acceptance_iff (factor : Prefix → M) (t t' : UnresolvedTemplates E M) (reordered : Reordered t t') :
    (∃ defs, runUnitSystem factor t = some (defs, [])) ↔ ∃ defs, runUnitSystem factor t' = some (defs, []) := by
  constructor
  · rintro ⟨defs, h⟩
    obtain ⟨d, h', _⟩ := C08_order_irrelevant factor t t' reordered defs h
    exact ⟨d, h'⟩
  · rintro ⟨defs, h⟩
    obtain ⟨d, h', _⟩ := C08_order_irrelevant factor t' t reordered.symm defs h
    exact ⟨d, h'⟩

end

-- Non-vacuity: the sample system with all its statement lists reversed is a reordering, so it is accepted as well
-- (there, `newtons` comes before `joules`, `joules` before `kilograms`, ...).
section
attribute [local instance] Sample.exactMag
example : ∃ defs, runUnitSystem Sample.exactFactor
    { Sample.sample with
      dimensions := Sample.sample.dimensions.reverse, units := Sample.sample.units.reverse,
      constants := Sample.sample.constants.reverse } = some (defs, []) := by
  obtain ⟨defs, h⟩ := Sample.sample_accepted
  obtain ⟨d, h', _⟩ := C08_order_irrelevant Sample.exactFactor Sample.sample
    { Sample.sample with
      dimensions := Sample.sample.dimensions.reverse, units := Sample.sample.units.reverse,
      constants := Sample.sample.constants.reverse }
    ⟨.refl _, .refl _, (List.reverse_perm _).symm, (List.reverse_perm _).symm, (List.reverse_perm _).symm⟩ defs h
  exact ⟨d, h'⟩
end

end Diman
