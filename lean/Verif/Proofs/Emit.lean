import Verif.Model.Emit
import Verif.Proofs.Generated

/-!
When the names of the generated code resolve.
-/
set_option linter.unusedSectionVars false
namespace Diman
open ScopeTree

section
variable {E M : Type} [Exponent E] [FieldOps E]

theorem emit_reexported (f : EmitFeatures) (d : Defs E M) : (emit f d).reexported (str!"unit_type") (str!"Unit") =
    [⟨true, .type, str!"Unit", .unitType⟩, ⟨true, .value, str!"Unit", .unitType⟩] := by
  have : (emit f d).children.filter (fun m => m.name = str!"unit_type") = [unitTypeModule d] := rfl
  unfold reexported
  rw [this]
  rfl

/-- The names bound at the top level without features. -/
def coreBindings (d : Defs E M) : List (Bound (Entity E M)) :=
  [⟨false, .type, str!"Exponent", .exponent⟩,
   ⟨false, .type, str!"DimensionExponent", .foreign (str!"dimension_exponent::DimensionExponent")⟩,
   ⟨true, .type, d.dimensionType, .dimensionType⟩,
   ⟨true, .type, d.quantityType, .quantityType⟩, ⟨true, .value, d.quantityType, .quantityType⟩,
   ⟨true, .type, str!"dimensions", .submodule (str!"dimensions")⟩,
   ⟨true, .type, str!"Magnitude", .magnitude⟩, ⟨false, .type, str!"unit_type", .submodule (str!"unit_type")⟩,
   ⟨true, .type, str!"Unit", .unitType⟩, ⟨true, .value, str!"Unit", .unitType⟩,
   ⟨true, .type, str!"units", .submodule (str!"units")⟩, ⟨true, .type, str!"constants", .submodule (str!"constants")⟩]

/-- The names bound at the top level because of features. -/
def featureBindings (f : EmitFeatures) : List (Bound (Entity E M)) :=
  direct (emitFloatTraits f ++ emitSerde f ++ emitRand f)

theorem emit_rootBindings (f : EmitFeatures) (d : Defs E M) : (emit f d).rootBindings = coreBindings d ++ featureBindings f := by
  obtain ⟨r, l, s, n⟩ := f
  have h := emit_reexported ⟨r, l, s, n⟩ d
  unfold rootBindings
  simp only [emit, emitRoot, emitDimension, emitQuantity, emitDimensionsMod, emitUnitsAndConstants, List.flatMap_append,
    List.flatMap_cons, List.flatMap_nil] at h ⊢
  rw [h]
  cases l <;> cases s <;> cases n <;> rfl

theorem feature_what (f : EmitFeatures) (b : Bound (Entity E M)) (h : b ∈ featureBindings f) :
    (∃ p, b.what = .foreign p) ∨ ∃ p, b.what = .helper p := by
  obtain ⟨r, l, s, n⟩ := f
  cases l <;> cases s <;> cases n <;>
    simp [featureBindings, direct, emitFloatTraits, emitSerde, emitRand] at h <;> aesop


theorem denotes_of_imported {f : EmitFeatures} {d : Defs E M} {n : Str} {b : Bound (Entity E M)} (h : b ∈ (emit f d).imported n) :
    b.name = n ∧ (b.what = .dimensionType → b.name = d.dimensionType) ∧ (b.what = .quantityType → b.name = d.quantityType) := by
  simp only [imported, List.mem_map, List.mem_filter, decide_eq_true_eq] at h
  obtain ⟨b', ⟨hb, hn⟩, rfl⟩ := h
  refine ⟨hn, ?_⟩
  rw [emit_rootBindings, List.mem_append] at hb
  rcases hb with hb | hb
  · simp only [coreBindings, List.mem_cons, List.not_mem_nil, or_false] at hb
    rcases hb with rfl | rfl | rfl | rfl | rfl | rfl | rfl | rfl | rfl | rfl | rfl | rfl <;> simp
  · rcases feature_what f _ hb with ⟨p, h⟩ | ⟨p, h⟩ <;> simp [h]

theorem mem_childBindings {T : Type} {t : ScopeTree T} {m : ScopeModule T} {b : Bound T} : b ∈ t.childBindings m ↔
    b ∈ direct m.items ∨ ∃ n, ScopeItem.useSuper n ∈ m.items ∧ b ∈ t.imported n := by
  simp only [childBindings, direct, List.mem_flatMap]
  constructor
  · rintro ⟨i, hi, hb⟩
    cases i with
    | binds p ns n w => exact .inl ⟨_, hi, hb⟩
    | useSuper n => exact .inr ⟨n, hi, hb⟩
    | reexport c n => simp at hb
  · rintro (⟨i, hi, hb⟩ | ⟨n, hi, hb⟩)
    · cases i with
      | binds p ns n w => exact ⟨_, hi, hb⟩
      | useSuper n => simp at hb
      | reexport c n => simp at hb
    · exact ⟨_, hi, hb⟩

/-- Legal code presupposes the two hard-coded type names. -/
theorem legal_names {f : EmitFeatures} {d : Defs E M} (h : (emit f d).Legal) :
    d.dimensionType = str!"Dimension" ∧ d.quantityType = str!"Quantity" := by
  have hm : unitTypeModule d ∈ (emit f d).children := by simp [emit]
  constructor
  · obtain ⟨p, hb⟩ := h.childRefs _ hm ⟨.type, str!"Dimension", .dimensionType⟩ (by simp [unitTypeModule])
    rcases mem_childBindings.1 hb with hb | ⟨n, _, hb⟩
    · simp [direct, unitTypeModule] at hb
    · exact ((denotes_of_imported hb).2.1 rfl).symm
  · obtain ⟨p, hb⟩ := h.childRefs _ hm ⟨.type, str!"Quantity", .quantityType⟩ (by simp [unitTypeModule])
    rcases mem_childBindings.1 hb with hb | ⟨n, _, hb⟩
    · simp [direct, unitTypeModule] at hb
    · exact ((denotes_of_imported hb).2.2 rfl).symm

section
variable {f : EmitFeatures} {d : Defs E M} (hd : d.dimensionType = str!"Dimension") (hq : d.quantityType = str!"Quantity")
include hd hq

theorem imported_dimension : (emit f d).imported (str!"Dimension") = [⟨false, .type, str!"Dimension", .dimensionType⟩] := by
  unfold imported
  rw [emit_rootBindings]; unfold coreBindings; rw [hd, hq]
  obtain ⟨r, l, s, n⟩ := f
  cases l <;> cases s <;> cases n <;> rfl
theorem imported_quantity : (emit f d).imported (str!"Quantity") =
    [⟨false, .type, str!"Quantity", .quantityType⟩, ⟨false, .value, str!"Quantity", .quantityType⟩] := by
  unfold imported
  rw [emit_rootBindings]; unfold coreBindings; rw [hd, hq]
  obtain ⟨r, l, s, n⟩ := f
  cases l <;> cases s <;> cases n <;> rfl
theorem imported_exponent : (emit f d).imported (str!"Exponent") = [⟨false, .type, str!"Exponent", .exponent⟩] := by
  unfold imported
  rw [emit_rootBindings]; unfold coreBindings; rw [hd, hq]
  obtain ⟨r, l, s, n⟩ := f
  cases l <;> cases s <;> cases n <;> rfl
theorem imported_magnitude : (emit f d).imported (str!"Magnitude") = [⟨false, .type, str!"Magnitude", .magnitude⟩] := by
  unfold imported
  rw [emit_rootBindings]; unfold coreBindings; rw [hd, hq]
  obtain ⟨r, l, s, n⟩ := f
  cases l <;> cases s <;> cases n <;> rfl
theorem imported_unit : (emit f d).imported (str!"Unit") =
    [⟨false, .type, str!"Unit", .unitType⟩, ⟨false, .value, str!"Unit", .unitType⟩] := by
  unfold imported
  rw [emit_rootBindings]; unfold coreBindings; rw [hd, hq]
  obtain ⟨r, l, s, n⟩ := f
  cases l <;> cases s <;> cases n <;> rfl

theorem bindings_dimensions : (emit f d).childBindings (dimensionsModule d) =
    [⟨false, .type, str!"Dimension", .dimensionType⟩, ⟨false, .type, str!"Quantity", .quantityType⟩,
      ⟨false, .value, str!"Quantity", .quantityType⟩, ⟨false, .type, str!"Exponent", .exponent⟩] ++
    d.dimensions.map fun x => ⟨true, .type, x.name, .alias (dimensionExpr d.baseDimensions x.dims)⟩ := by
  unfold childBindings
  simp only [dimensionsModule, List.flatMap_append, List.flatMap_cons, List.flatMap_nil, List.flatMap_map, hd, hq]
  rw [imported_dimension hd hq, imported_quantity hd hq, imported_exponent hd hq]
  simp [List.map_eq_flatMap]

theorem bindings_unitType : (emit f d).childBindings (unitTypeModule d) =
    [⟨false, .type, str!"Dimension", .dimensionType⟩, ⟨false, .type, str!"Magnitude", .magnitude⟩,
      ⟨false, .type, str!"Quantity", .quantityType⟩, ⟨false, .value, str!"Quantity", .quantityType⟩,
      ⟨true, .type, str!"Unit", .unitType⟩, ⟨true, .value, str!"Unit", .unitType⟩,
      ⟨true, .type, str!"RuntimeUnit", .runtimeUnit⟩, ⟨true, .value, str!"RuntimeUnit", .runtimeUnit⟩,
      ⟨false, .type, str!"Mul", .foreign (str!"core::ops::Mul")⟩, ⟨false, .type, str!"Div", .foreign (str!"core::ops::Div")⟩] := by
  unfold childBindings
  simp only [unitTypeModule, List.flatMap_cons, List.flatMap_nil]
  rw [imported_dimension hd hq, imported_quantity hd hq, imported_magnitude hd hq]
  rfl

/-- What both modules of constants import. -/
def unitImported : List (Bound (Entity E M)) :=
  [⟨false, .type, str!"Magnitude", .magnitude⟩, ⟨false, .type, str!"Unit", .unitType⟩, ⟨false, .value, str!"Unit", .unitType⟩,
      ⟨false, .type, str!"Dimension", .dimensionType⟩, ⟨false, .type, str!"Exponent", .exponent⟩]

theorem bindings_units : (emit f d).childBindings (unitsModule f d) = unitImported ++
    d.units.map fun x => ⟨true, .value, x.name, .unit (dimensionExpr d.baseDimensions x.dims) x.mag⟩ := by
  unfold childBindings
  simp only [unitsModule, unitImports, List.flatMap_append, List.flatMap_cons, List.flatMap_nil, List.flatMap_map]
  rw [imported_dimension hd hq, imported_magnitude hd hq, imported_unit hd hq, imported_exponent hd hq]
  simp [List.map_eq_flatMap, unitImported]

theorem bindings_constants : (emit f d).childBindings (constantsModule f d) = unitImported ++
    d.constants.map fun x => ⟨true, .value, x.name, .unit (dimensionExpr d.baseDimensions x.dims) x.mag⟩ := by
  unfold childBindings
  simp only [constantsModule, unitImports, List.flatMap_append, List.flatMap_cons, List.flatMap_nil, List.flatMap_map]
  rw [imported_dimension hd hq, imported_magnitude hd hq, imported_unit hd hq, imported_exponent hd hq]
  simp [List.map_eq_flatMap, unitImported]

end

/-- When the generated code is legal, in terms of the definitions. -/
theorem emit_legal_iff (f : EmitFeatures) (d : Defs E M) (dn : (d.dimensions.map DimensionDef.name).Nodup)
    (un : (d.units.map UnitDef.name).Nodup) (cn : (d.constants.map ConstantDef.name).Nodup)
    (di : ∀ x ∈ d.dimensions, IsIdent x.name) (ui : ∀ x ∈ d.units, IsIdent x.name) (ci : ∀ x ∈ d.constants, IsIdent x.name) :
    (emit f d).Legal ↔ (d.dimensionType = str!"Dimension" ∧ d.quantityType = str!"Quantity") ∧
      (∀ x ∈ d.dimensions, x.name ∉ [str!"Dimension", str!"Quantity", str!"Exponent"]) ∧
      (∀ x ∈ d.units, x.name ≠ str!"Unit") ∧ (∀ x ∈ d.constants, x.name ≠ str!"Unit") ∧
      d.baseDimensions.Nodup ∧ ∀ b ∈ d.baseDimensions, IsIdent b := by
  constructor
  · intro h
    obtain ⟨hd, hq⟩ := legal_names h
    refine ⟨⟨hd, hq⟩, fun x hx hm => ?_, fun x hx hm => ?_, fun x hx hm => ?_, h.fieldsDistinct d.baseDimensions (by simp [emit]),
      h.fieldsNotKeywords d.baseDimensions (by simp [emit])⟩
    · have := h.childDistinct (dimensionsModule d) (by simp [emit])
      unfold Distinct at this
      rw [bindings_dimensions hd hq, List.map_append, List.nodup_append] at this
      have h3 := this.2.2
      simp only [List.map_map, List.mem_map, Function.comp] at h3
      refine h3 (.type, x.name) ?_ (.type, x.name) ⟨x, hx, rfl⟩ rfl
      simp only [List.mem_cons, List.not_mem_nil, or_false] at hm
      rcases hm with hm | hm | hm <;> rw [hm] <;> simp
    · have := h.childDistinct (unitsModule f d) (by simp [emit])
      unfold Distinct at this
      rw [bindings_units hd hq, List.map_append, List.nodup_append] at this
      have h3 := this.2.2
      simp only [List.map_map, List.mem_map, Function.comp] at h3
      refine h3 (.value, x.name) ?_ (.value, x.name) ⟨x, hx, rfl⟩ rfl
      rw [hm]; simp [unitImported]
    · have := h.childDistinct (constantsModule f d) (by simp [emit])
      unfold Distinct at this
      rw [bindings_constants hd hq, List.map_append, List.nodup_append] at this
      have h3 := this.2.2
      simp only [List.map_map, List.mem_map, Function.comp] at h3
      refine h3 (.value, x.name) ?_ (.value, x.name) ⟨x, hx, rfl⟩ rfl
      rw [hm]; simp [unitImported]
  · rintro ⟨⟨hd, hq⟩, h1, h2, h3, h4, h5⟩
    have inj : ∀ (α : Type) (name : α → Str) (s : Ns) (l : List α), (l.map name).Nodup →
        (l.map fun x => (s, name x)).Nodup := by
      intro α name s l h
      have := h.map (f := fun n => (s, n)) (by intro a b h; simpa using h)
      rw [List.map_map] at this
      exact this
    have root : (emit f d).rootBindings = coreBindings d ++ featureBindings f := emit_rootBindings f d
    refine ⟨?_, ?_, ?_, ?_, ?_, ?_, ?_, ?_, ?_⟩
    · unfold Distinct
      rw [root]; unfold coreBindings; rw [hd, hq]
      obtain ⟨r, l, s, n⟩ := f
      cases l <;> cases s <;> cases n <;>
        simp only [featureBindings, direct, emitFloatTraits, emitSerde, emitRand, List.flatMap_append, List.flatMap_cons,
          List.flatMap_nil, List.map_append, List.map_cons, List.map_nil, if_true, if_false, Bool.false_eq_true] <;> decide
    · intro m hm
      simp only [emit, List.mem_cons, List.not_mem_nil, or_false] at hm
      rcases hm with rfl | rfl | rfl | rfl
      · unfold Distinct
        rw [bindings_dimensions hd hq, List.map_append, List.map_map, List.nodup_append]
        refine ⟨by simp only [List.map_cons, List.map_nil]; decide, inj _ DimensionDef.name _ _ dn, ?_⟩
        intro a ha b hb hab
        subst hab
        obtain ⟨x, hx, rfl⟩ := List.mem_map.1 hb
        have := h1 x hx
        simp at ha this
        tauto
      · unfold Distinct
        rw [bindings_unitType hd hq]
        simp only [List.map_cons, List.map_nil]; decide
      · unfold Distinct
        rw [bindings_units hd hq, List.map_append, List.map_map, List.nodup_append]
        refine ⟨by simp only [unitImported, List.map_cons, List.map_nil]; decide, inj _ UnitDef.name _ _ un, ?_⟩
        intro a ha b hb hab
        subst hab
        obtain ⟨x, hx, rfl⟩ := List.mem_map.1 hb
        have := h2 x hx
        simp [unitImported] at ha this
        tauto
      · unfold Distinct
        rw [bindings_constants hd hq, List.map_append, List.map_map, List.nodup_append]
        refine ⟨by simp only [unitImported, List.map_cons, List.map_nil]; decide, inj _ ConstantDef.name _ _ cn, ?_⟩
        intro a ha b hb hab
        subst hab
        obtain ⟨x, hx, rfl⟩ := List.mem_map.1 hb
        have := h3 x hx
        simp [unitImported] at ha this
        tauto
    · intro c n h
      have : c = str!"unit_type" ∧ n = str!"Unit" := by
        simp only [emit, emitRoot, emitDimension, emitQuantity, emitDimensionsMod, emitUnitsAndConstants, emitFloatTraits, emitSerde,
          emitRand, List.mem_append] at h
        obtain ⟨r, l, s, n⟩ := f
        cases l <;> cases s <;> cases n <;> simpa using h
      rw [this.1, this.2, emit_reexported]; simp
    · intro m hm n hn
      simp only [emit, List.mem_cons, List.not_mem_nil, or_false] at hm
      have key : n ∈ [str!"Dimension", str!"Quantity", str!"Exponent", str!"Magnitude", str!"Unit"] := by
        rcases hm with rfl | rfl | rfl | rfl
        · simp [dimensionsModule, hd, hq] at hn
          rcases hn with rfl | rfl | rfl <;> simp
        · simp [unitTypeModule] at hn
          rcases hn with rfl | rfl | rfl <;> simp
        · simp [unitsModule, unitImports] at hn
          rcases hn with rfl | rfl | rfl | rfl <;> simp
        · simp [constantsModule, unitImports] at hn
          rcases hn with rfl | rfl | rfl | rfl <;> simp
      simp only [List.mem_cons, List.not_mem_nil, or_false] at key
      rcases key with rfl | rfl | rfl | rfl | rfl
      · rw [imported_dimension hd hq]; simp
      · rw [imported_quantity hd hq]; simp
      · rw [imported_exponent hd hq]; simp
      · rw [imported_magnitude hd hq]; simp
      · rw [imported_unit hd hq]; simp
    · intro r hr
      unfold Denotes
      rw [root]
      obtain ⟨_, l, s, n⟩ := f
      simp only [emit, rootRefs, List.mem_append] at hr
      rcases hr with (hr | hr) | hr
      · simp only [List.mem_cons, List.not_mem_nil, or_false] at hr
        rcases hr with rfl | rfl | rfl | rfl | rfl <;> simp [coreBindings]
      · cases s
        · simp at hr
        · simp at hr
          rcases hr with rfl | rfl | rfl | rfl | rfl | rfl | rfl <;> simp [featureBindings, direct, emitSerde]
      · cases n
        · simp at hr
        · simp at hr
          rcases hr with rfl | rfl | rfl | rfl | rfl | rfl <;> simp [featureBindings, direct, emitRand]
    · intro m hm r hr
      unfold Denotes
      simp only [emit, List.mem_cons, List.not_mem_nil, or_false] at hm
      rcases hm with rfl | rfl | rfl | rfl
      · rw [bindings_dimensions hd hq]
        simp [dimensionsModule, hd, hq] at hr
        rcases hr with rfl | rfl | rfl <;> simp
      · rw [bindings_unitType hd hq]
        simp [unitTypeModule, hd] at hr
        rcases hr with rfl | rfl | rfl | rfl | rfl | rfl | rfl | rfl | rfl <;> simp
      · rw [bindings_units hd hq]
        simp only [unitsModule, unitRefs, hd] at hr
        split at hr
        · simp at hr
        · simp only [List.mem_append, List.mem_cons, List.not_mem_nil, or_false] at hr
          rcases hr with (rfl | rfl | rfl | rfl) | hr
          iterate 4 simp [unitImported]
          split at hr
          · simp at hr; subst hr; simp [unitImported]
          · simp at hr
      · rw [bindings_constants hd hq]
        simp only [constantsModule, unitRefs, hd] at hr
        split at hr
        · simp at hr
        · simp only [List.mem_append, List.mem_cons, List.not_mem_nil, or_false] at hr
          rcases hr with (rfl | rfl | rfl | rfl) | hr
          iterate 4 simp [unitImported]
          split at hr
          · simp at hr; subst hr; simp [unitImported]
          · simp at hr
    · intro fs hfs
      simp [emit] at hfs; subst hfs; exact h4
    · have hroot : ∀ b ∈ (emit f d).rootBindings, IsIdent b.name := by
        rw [root]; unfold coreBindings; rw [hd, hq]
        obtain ⟨r, l, s, n⟩ := f
        intro b hb
        have hb' := List.mem_map_of_mem (f := Bound.name) hb
        revert hb'
        generalize b.name = x
        revert x
        unfold IsIdent
        cases l <;> cases s <;> cases n <;>
          simp only [featureBindings, direct, emitFloatTraits, emitSerde, emitRand, List.flatMap_append, List.flatMap_cons,
            List.flatMap_nil, List.map_append, List.map_cons, List.map_nil, if_true, if_false, Bool.false_eq_true] <;> decide +kernel
      have himp : ∀ n b, b ∈ (emit f d).imported n → IsIdent b.name := by
        intro n b hb
        simp only [imported, List.mem_map, List.mem_filter] at hb
        obtain ⟨b', hb', rfl⟩ := hb
        exact hroot b' hb'.1
      rintro b (hb | ⟨m, hm, hb⟩)
      · exact hroot b hb
      · rcases mem_childBindings.1 hb with hb | ⟨n, _, hb⟩
        · simp only [emit, List.mem_cons, List.not_mem_nil, or_false] at hm
          rcases hm with rfl | rfl | rfl | rfl
          · simp [direct, dimensionsModule] at hb
            obtain ⟨x, hx, rfl⟩ := hb
            exact di x hx
          · simp [direct, unitTypeModule] at hb
            rcases hb with rfl | rfl | rfl | rfl | rfl | rfl <;> (unfold IsIdent; dsimp only; decide +kernel)
          · simp [direct, unitsModule, unitImports] at hb
            obtain ⟨x, hx, rfl⟩ := hb
            exact ui x hx
          · simp [direct, constantsModule, unitImports] at hb
            obtain ⟨x, hx, rfl⟩ := hb
            exact ci x hx
        · exact himp n b hb
    · intro fs hfs b hb
      simp [emit] at hfs; subst hfs; exact h5 b hb

end
end Diman
