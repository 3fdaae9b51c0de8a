import Verif.Proofs.Emit
import Verif.Props.C18
import Verif.Props.C42
import Verif.Examples.Sample
/-!
# C49. The names of the generated code
Which unit systems that pass all of the macro's checks lead to code whose names resolve, and what the public paths stand for.
-/
set_option linter.unusedSectionVars false
namespace Diman
open ScopeTree

/-- Every name the statements give is an identifier (as for every system that was parsed: `C49_identifiers`). -/
structure Identifiers {E M : Type} (t : UnresolvedTemplates E M) : Prop where
  dimensions : ∀ d ∈ t.dimensions, IsIdent d.name
  units : ∀ u ∈ t.units, IsIdent u.name ∧ ∀ a ∈ u.aliases, IsIdent a
  constants : ∀ c ∈ t.constants, IsIdent c.name

/-- The names that lead to working code. -/
structure WorkingNames {E M : Type} (t : UnresolvedTemplates E M) : Prop where
  quantityType : t.quantityTypes = [str!"Quantity"]
  dimensionType : t.dimensionTypes = [str!"Dimension"]
  dimensions : ∀ d ∈ t.dimensions, d.name ∉ [str!"Dimension", str!"Quantity", str!"Exponent"]
  units : ∀ u ∈ t.units, u.name ≠ str!"Unit" ∧ str!"Unit" ∉ u.aliases
  constants : ∀ c ∈ t.constants, c.name ≠ str!"Unit"
  /-- distinct base dimensions become distinct fields -/
  fields : ∀ d ∈ t.dimensions, ∀ e ∈ t.dimensions, d.rhs = .base () → e.rhs = .base () →
    toSnakecase d.name = toSnakecase e.name → d.name = e.name
  /-- and the fields are no keywords -/
  keywords : ∀ d ∈ t.dimensions, d.rhs = .base () → IsIdent (toSnakecase d.name)

theorem prefix_isIdent (p : Prefix) (s : Str) : IsIdent (p.name ++ s) := by
  intro h
  have key : ∀ k ∈ reservedWords, ∀ p ∈ Prefix.all, p.name.isPrefixOf k = false := by decide +kernel
  have hp : p ∈ Prefix.all := by cases p <;> decide
  have := key _ h p hp
  rw [← Bool.not_eq_true, List.isPrefixOf_iff_prefix] at this
  exact this (List.prefix_append _ _)

theorem prefix_ne_unit (p : Prefix) (s : Str) : p.name ++ s ≠ str!"Unit" := by
  intro h
  have key : ∀ p ∈ Prefix.all, p.name.isPrefixOf (str!"Unit") = false := by decide +kernel
  have hp : p ∈ Prefix.all := by cases p <;> decide
  have := key p hp
  rw [← Bool.not_eq_true, List.isPrefixOf_iff_prefix] at this
  exact this (h ▸ List.prefix_append _ _)

section
variable {E M : Type} [Exponent E] [FieldOps E] [MagOps E M]

theorem nodup_map_iff {α : Type} {name field : α → Str} {l : List α} (hn : (l.map name).Nodup) :
    (l.map field).Nodup ↔ ∀ a ∈ l, ∀ b ∈ l, field a = field b → name a = name b := by
  induction l with
  | nil => simp
  | cons a l ih =>
    simp only [List.map_cons, List.nodup_cons, List.mem_map] at hn ⊢
    rw [ih hn.2]
    constructor
    · rintro ⟨h1, h2⟩ x hx y hy hxy
      rcases List.mem_cons.1 hx with hx' | hx' <;> rcases List.mem_cons.1 hy with hy' | hy'
      · rw [hx', hy']
      · exact absurd ⟨y, hy', by rw [← hx', hxy]⟩ h1
      · exact absurd ⟨x, hx', by rw [← hy', hxy]⟩ h1
      · exact h2 x hx' y hy' hxy
    · intro h
      refine ⟨?_, fun x hx y hy => h x (List.mem_cons_of_mem _ hx) y (List.mem_cons_of_mem _ hy)⟩
      rintro ⟨b, hb, hbe⟩
      exact hn.1 ⟨b, hb, h b (List.mem_cons_of_mem _ hb) a (by simp) hbe⟩

theorem isBase_iff (d : DimensionEntry E) : d.isBase = true ↔ d.rhs = .base () := by
  unfold DimensionEntry.isBase
  cases d.rhs <;> simp

/-- **C49.** The macro reports no error for a unit system. Then the code it generates obeys Rust's scoping rules — no name is bound
twice, every import and every name used resolves to what the code generator means by it — exactly if the type names are the two
usual ones, no statement uses one of the few reserved names, and base dimensions keep apart when converted to field names. -/
theorem C49_legal_iff (factor : Prefix → M) (t : UnresolvedTemplates E M) (defs : Defs E M)
    (accepted : runUnitSystem factor t = some (defs, [])) (identifiers : Identifiers t) (features : EmitFeatures) :
    (emit features defs).Legal ↔ WorkingNames t := by
  obtain ⟨res, h⟩ := accepted_of_run accepted
  have hq : t.quantityTypes = [defs.quantityType] := h.quantity
  have hdt : t.dimensionTypes = [defs.dimensionType] := h.dimension
  have hdims : ∀ x, (∃ D ∈ defs.dimensions, D.name = x) ↔ ∃ d ∈ t.dimensions, d.name = x := by
    intro x
    constructor
    · rintro ⟨D, hD, rfl⟩
      obtain ⟨d, hd, dm, _, rfl⟩ := h.dim_from hD
      exact ⟨d, hd, rfl⟩
    · rintro ⟨d, hd, rfl⟩
      obtain ⟨dm, _, _, h⟩ := h.dim_val hd
      exact ⟨_, h, rfl⟩
  have hconst : ∀ x, (∃ D ∈ defs.constants, D.name = x) ↔ ∃ d ∈ t.constants, d.name = x := by
    intro x
    constructor
    · rintro ⟨D, hD, rfl⟩
      obtain ⟨d, hd, dm, _, rfl⟩ := h.const_from hD
      exact ⟨d, hd, rfl⟩
    · rintro ⟨d, hd, rfl⟩
      obtain ⟨dm, _, _, h⟩ := h.const_val hd
      exact ⟨_, h, rfl⟩
  have hunit : ∀ x, (∃ D ∈ defs.units, D.name = x) ↔ ∃ u ∈ t.units, ∃ pre al, (pre = none ∨ ∃ p ∈ u.prefixes, pre = some p) ∧
      (al = none ∨ ∃ a ∈ u.aliases, al = some a) ∧ u.formatName pre al = x := by
    intro x
    constructor
    · rintro ⟨D, hD, rfl⟩
      obtain ⟨d, hd, dm, _, rfl⟩ := h.unit_from hD
      simp only [UnresolvedTemplates.expand, List.mem_flatMap] at hd
      obtain ⟨u, hu, hd⟩ := hd
      obtain ⟨pre, al, h1, h2, rfl⟩ := UnitTemplate.mem_expand.1 hd
      exact ⟨u, hu, pre, al, h1, h2, rfl⟩
    · rintro ⟨u, hu, pre, al, h1, h2, rfl⟩
      have : u.expandOne (MagOps.one E) factor pre al ∈ (UnresolvedTemplates.expand (MagOps.one E) factor t).units := by
        simp only [UnresolvedTemplates.expand, List.mem_flatMap]
        exact ⟨u, hu, UnitTemplate.mem_expand.2 ⟨pre, al, h1, h2, rfl⟩⟩
      obtain ⟨dm, _, _, h⟩ := h.unit_val this
      exact ⟨_, h, rfl⟩
  have hbase : defs.baseDimensions = (t.dimensions.filter DimensionEntry.isBase).map fun d => toSnakecase d.name := h.base_dims
  have hnd : ((t.dimensions.filter DimensionEntry.isBase).map DimensionEntry.name).Nodup := by
    have := h.nodup
    unfold Unresolved.names at this
    exact (List.nodup_append.1 (List.nodup_append.1 this).1).1.sublist (List.filter_sublist.map _)
  rw [emit_legal_iff features defs h.dim_nodup h.unit_nodup h.const_nodup]
  · have hu2 : (∀ x ∈ defs.units, x.name ≠ str!"Unit") ↔ ∀ u ∈ t.units, u.name ≠ str!"Unit" ∧ str!"Unit" ∉ u.aliases := by
      constructor
      · intro hx u hu
        refine ⟨fun he => ?_, fun he => ?_⟩
        · obtain ⟨D, hD, hn⟩ := (hunit (str!"Unit")).2 ⟨u, hu, none, none, .inl rfl, .inl rfl, he⟩
          exact hx D hD hn
        · obtain ⟨D, hD, hn⟩ := (hunit (str!"Unit")).2 ⟨u, hu, none, some _, .inl rfl, .inr ⟨_, he, rfl⟩, rfl⟩
          exact hx D hD hn
      · intro hx D hD hn
        obtain ⟨u, hu, pre, al, h1, h2, he⟩ := (hunit (str!"Unit")).1 ⟨D, hD, hn⟩
        cases pre with
        | some p => exact prefix_ne_unit p _ he
        | none =>
          rcases h2 with rfl | ⟨a, ha, rfl⟩
          · exact (hx u hu).1 he
          · have he : a = str!"Unit" := he
            exact (hx u hu).2 (he ▸ ha)
    have hd2 : (∀ x ∈ defs.dimensions, x.name ∉ [str!"Dimension", str!"Quantity", str!"Exponent"]) ↔
        ∀ x ∈ t.dimensions, x.name ∉ [str!"Dimension", str!"Quantity", str!"Exponent"] := by
      constructor
      · intro hx d hd
        obtain ⟨D, hD, hn⟩ := (hdims d.name).2 ⟨d, hd, rfl⟩
        rw [← hn]; exact hx D hD
      · intro hx d hd
        obtain ⟨D, hD, hn⟩ := (hdims d.name).1 ⟨d, hd, rfl⟩
        rw [← hn]; exact hx D hD
    have hc2 : (∀ x ∈ defs.constants, x.name ≠ str!"Unit") ↔ ∀ x ∈ t.constants, x.name ≠ str!"Unit" := by
      constructor
      · intro hx d hd
        obtain ⟨D, hD, hn⟩ := (hconst d.name).2 ⟨d, hd, rfl⟩
        rw [← hn]; exact hx D hD
      · intro hx d hd
        obtain ⟨D, hD, hn⟩ := (hconst d.name).1 ⟨d, hd, rfl⟩
        rw [← hn]; exact hx D hD
    rw [hu2, hd2, hc2, hbase, nodup_map_iff (name := DimensionEntry.name) hnd]
    constructor
    · rintro ⟨⟨h1, h2⟩, h3, h4, h5, h6, h7⟩
      refine ⟨by rw [hq, h2], by rw [hdt, h1], h3, h4, h5, fun d hd e he bd be => h6 d ?_ e ?_, fun d hd bd => h7 _ (List.mem_map.2 ⟨d, ?_, rfl⟩)⟩
      all_goals rw [List.mem_filter, isBase_iff]; exact ⟨by assumption, by assumption⟩
    · intro w
      have h1 := w.quantityType
      have h2 := w.dimensionType
      rw [hq] at h1; rw [hdt] at h2
      refine ⟨⟨by simpa using h2, by simpa using h1⟩, w.dimensions, w.units, w.constants, fun d hd e he => ?_, fun b hb => ?_⟩
      · rw [List.mem_filter, isBase_iff] at hd he
        exact w.fields d hd.1 e he.1 hd.2 he.2
      · obtain ⟨d, hd, rfl⟩ := List.mem_map.1 hb
        rw [List.mem_filter, isBase_iff] at hd
        exact w.keywords d hd.1 hd.2
  · intro x hx
    obtain ⟨D, hD, hn⟩ := (hdims x.name).1 ⟨x, hx, rfl⟩
    rw [← hn]; exact identifiers.dimensions D hD
  · intro x hx
    obtain ⟨u, hu, pre, al, h1, h2, he⟩ := (hunit x.name).1 ⟨x, hx, rfl⟩
    rw [← he]
    cases pre with
    | some p => exact prefix_isIdent p _
    | none =>
      rcases h2 with rfl | ⟨a, ha, rfl⟩
      · exact (identifiers.units u hu).1
      · exact (identifiers.units u hu).2 a ha
  · intro x hx
    obtain ⟨D, hD, hn⟩ := (hconst x.name).1 ⟨x, hx, rfl⟩
    rw [← hn]; exact identifiers.constants D hD


/-- What stands for a submodule. -/
def Entity.IsModule : Entity E M → Prop
  | .submodule _ => True
  | _ => False

theorem path_iff {f : EmitFeatures} {d : Defs E M} {m : ScopeModule (Entity E M)} (hm : m ∈ (emit f d).children)
    (pub : (⟨true, .type, m.name, .submodule m.name⟩ : Bound (Entity E M)) ∈ coreBindings d) (ns : Ns) (x : Str) (w : Entity E M) :
    (emit f d).Path Entity.IsModule m.name ns x w ↔ (⟨true, ns, x, w⟩ : Bound (Entity E M)) ∈ (emit f d).childBindings m := by
  constructor
  · rintro ⟨_, m', hm', hn, hb⟩
    have : m' = m := by
      simp only [emit, List.mem_cons, List.not_mem_nil, or_false] at hm hm'
      rcases hm with rfl | rfl | rfl | rfl <;> rcases hm' with rfl | rfl | rfl | rfl <;>
        first | rfl | (simp [dimensionsModule, unitTypeModule, unitsModule, constantsModule] at hn)
    exact this ▸ hb
  · intro hb
    exact ⟨⟨.submodule m.name, trivial, by rw [emit_rootBindings]; exact List.mem_append_left _ pub⟩, m, hm, rfl, hb⟩

/-- **C49.** What the public paths of legal generated code stand for: `dimensions::X`, `units::x` and `constants::C` are the
definitions of the system, nothing else, with their dimensions and magnitudes. -/
theorem C49_paths (defs : Defs E M) (features : EmitFeatures) (legal : (emit features defs).Legal)
    (x : Str) (w : Entity E M) :
    ((emit features defs).Path Entity.IsModule (str!"dimensions") .type x w ↔
      ∃ D ∈ defs.dimensions, D.name = x ∧ w = .alias (dimensionExpr defs.baseDimensions D.dims)) ∧
    ((emit features defs).Path Entity.IsModule (str!"units") .value x w ↔
      ∃ U ∈ defs.units, U.name = x ∧ w = .unit (dimensionExpr defs.baseDimensions U.dims) U.mag) ∧
    ((emit features defs).Path Entity.IsModule (str!"constants") .value x w ↔
      ∃ C ∈ defs.constants, C.name = x ∧ w = .unit (dimensionExpr defs.baseDimensions C.dims) C.mag) := by
  obtain ⟨hd, hq⟩ := legal_names legal
  refine ⟨?_, ?_, ?_⟩
  · rw [show str!"dimensions" = (dimensionsModule defs).name from rfl,
      path_iff (by simp [emit]) (by simp [coreBindings, dimensionsModule]), bindings_dimensions hd hq]
    simp only [List.mem_append, List.mem_cons, List.mem_map, Bound.mk.injEq]
    constructor
    · rintro (h | ⟨D, hD, _, _, rfl, rfl⟩)
      · simp at h
      · exact ⟨D, hD, rfl, rfl⟩
    · rintro ⟨D, hD, rfl, rfl⟩
      exact .inr ⟨D, hD, by simp⟩
  · rw [show str!"units" = (unitsModule features defs).name from rfl,
      path_iff (by simp [emit]) (by simp [coreBindings, unitsModule]), bindings_units hd hq]
    simp only [unitImported, List.mem_append, List.mem_cons, List.mem_map, Bound.mk.injEq]
    constructor
    · rintro (h | ⟨D, hD, _, _, rfl, rfl⟩)
      · simp at h
      · exact ⟨D, hD, rfl, rfl⟩
    · rintro ⟨D, hD, rfl, rfl⟩
      exact .inr ⟨D, hD, by simp⟩
  · rw [show str!"constants" = (constantsModule features defs).name from rfl,
      path_iff (by simp [emit]) (by simp [coreBindings, constantsModule]), bindings_constants hd hq]
    simp only [unitImported, List.mem_append, List.mem_cons, List.mem_map, Bound.mk.injEq]
    constructor
    · rintro (h | ⟨D, hD, _, _, rfl, rfl⟩)
      · simp at h
      · exact ⟨D, hD, rfl, rfl⟩
    · rintro ⟨D, hD, rfl, rfl⟩
      exact .inr ⟨D, hD, by simp⟩

/-- **C49.** In an accepted system with legal code, every unit `x` (prefixed and aliased ones included) is what the path `units::x`
stands for, and nothing else is: a `Unit` with its resolved magnitude, and a dimension that has the resolved exponent in every
field. -/
theorem C49_unit_path [LawfulExponent E] [LawfulFieldOps E] [WrittenExponent E] (factor : Prefix → M)
    (t : UnresolvedTemplates E M) (defs : Defs E M) (accepted : runUnitSystem factor t = some (defs, []))
    (literals : (UnresolvedTemplates.expand (MagOps.one E) factor t).LitExponents (WrittenExponent.Ok : E → Prop))
    (features : EmitFeatures) (legal : (emit features defs).Legal) (U : UnitDef E M) (hU : U ∈ defs.units) :
    ∃ v : DimVal E, v.vec = defs.baseDimensions.map U.dims.expo ∧
      ∀ w, (emit features defs).Path Entity.IsModule (str!"units") .value U.name w ↔ w = .unit (some v) U.mag := by
  obtain ⟨res, h⟩ := accepted_of_run accepted
  obtain ⟨v, hv, hvec, _⟩ := C18_exponents factor t defs accepted literals
    (legal.fieldsDistinct defs.baseDimensions (by simp [emit])) U.dims
    (by simp only [Defs.allDims, List.mem_append, List.mem_map]; exact .inl (.inr ⟨U, hU, rfl⟩))
  refine ⟨v, hvec, fun w => ?_⟩
  rw [(C49_paths defs features legal U.name w).2.1, ← hv]
  constructor
  · rintro ⟨U', hU', hn, rfl⟩
    have : U' = U := List.inj_on_of_nodup_map h.unit_nodup hU' hU hn
    rw [this]
  · rintro rfl
    exact ⟨U, hU, rfl, rfl⟩

/-- The type of unit products and quotients cannot be named from outside: no public path leads to it. -/
theorem C49_runtime_unit_private (features : EmitFeatures) (defs : Defs E M) (names : defs.dimensionType = str!"Dimension")
    (names' : defs.quantityType = str!"Quantity") :
    (∀ p ns x, (⟨p, ns, x, .runtimeUnit⟩ : Bound (Entity E M)) ∉ (emit features defs).rootBindings) ∧
    ∀ c ns x, ¬ (emit features defs).Path Entity.IsModule c ns x .runtimeUnit := by
  have hroot : ∀ p ns x, (⟨p, ns, x, .runtimeUnit⟩ : Bound (Entity E M)) ∉ (emit features defs).rootBindings := by
    intro p ns x h
    rw [emit_rootBindings, List.mem_append] at h
    rcases h with h | h
    · simp [coreBindings] at h
    · rcases feature_what _ _ h with ⟨p, h⟩ | ⟨p, h⟩ <;> simp at h
  refine ⟨hroot, ?_⟩
  rintro c ns x ⟨⟨w, hw, hmod⟩, m, hm, rfl, hb⟩
  simp only [emit, List.mem_cons, List.not_mem_nil, or_false] at hm
  rcases hm with rfl | rfl | rfl | rfl
  · rw [bindings_dimensions names names'] at hb
    simp at hb
  · rw [emit_rootBindings, List.mem_append] at hmod
    rcases hmod with h | h
    · simp only [coreBindings, unitTypeModule, names, names', List.mem_cons, Bound.mk.injEq, List.not_mem_nil, or_false] at h
      simp at h
    · rcases feature_what _ _ h with ⟨p, h⟩ | ⟨p, h⟩ <;> (simp at h; subst h; exact hw)
  · rw [bindings_units names names'] at hb
    simp [unitImported] at hb
  · rw [bindings_constants names names'] at hb
    simp [unitImported] at hb

/-- **C49, what other modules see.** The public names of the generated module itself: the two types, the three modules, `Magnitude` and the unit type, and with feature
`rand` the sampler. Imports and helpers stay private, whatever the features and the unit system are. -/
theorem C49_exports (features : EmitFeatures) (defs : Defs E M) :
    ((emit features defs).rootBindings.filter fun b => b.isPub).map (fun b => (b.ns, b.name)) =
      [(.type, defs.dimensionType), (.type, defs.quantityType), (.value, defs.quantityType), (.type, str!"dimensions"), (.type, str!"Magnitude"),
        (.type, str!"Unit"), (.value, str!"Unit"), (.type, str!"units"), (.type, str!"constants")] ++
      if features.rand then [(.type, str!"UniformQuantity"), (.value, str!"UniformQuantity")] else [] := by
  rw [emit_rootBindings]
  obtain ⟨r, l, s, n⟩ := features
  cases l <;> cases s <;> cases n <;> rfl

end

theorem separated_mem {α : Type} {S : α → List Tok → Prop} {sep : Char} {l : List α} {ts : List Tok} (h : Separated S sep l ts)
    {a : α} (ha : a ∈ l) : ∃ ta, S a ta := by
  induction l generalizing ts with
  | nil => simp at ha
  | cons b l ih =>
    obtain ⟨ta, tl, h1, h2, _⟩ := h
    rcases List.mem_cons.1 ha with rfl | ha
    · exact ⟨_, h1⟩
    · exact ih h2 ha

theorem attrs_aliases {as : List AttrForm} {ts : List Tok} (h : WrittenAttrs WrittenAttr as ts) {x : Str}
    (hx : x ∈ AttrForm.aliases as) : IsIdent x := by
  induction as generalizing ts with
  | nil => simp [AttrForm.aliases] at hx
  | cons b as ih =>
    obtain ⟨c, tl, hb, htl, _⟩ := h
    unfold AttrForm.aliases at hx
    rw [List.flatMap_cons, List.mem_append] at hx
    rcases hx with hx | hx
    · cases b <;> simp at hx
      obtain ⟨cc, hsep, _⟩ := hb
      obtain ⟨_, h⟩ := separated_mem hsep hx
      exact h.1
    · exact ih htl hx

/-- **C49.** The names in every system that could be parsed are identifiers. -/
theorem C49_identifiers {E M : Type} [ReadExponent E] (mag : Number → M) (ts : List Tok) (s : UnresolvedTemplates ExpSyn Number)
    (t : UnresolvedTemplates E M) (rational : Bool) (parsed : parseSystem rational ts = some s)
    (read : readTemplates mag s = some t) : Identifiers t := by
  obtain ⟨l, hl, hc⟩ := (C42_iff rational ts s).1 parsed
  have hmem : ∀ e ∈ l, ∃ te, WrittenEntry rational e te := fun e he => separated_mem hl he
  simp only [readTemplates, Option.bind_eq_bind, Option.bind_eq_some_iff, pure, Option.some.injEq] at read
  obtain ⟨ds, hds, us, hus, cs, hcs, rfl⟩ := read
  have fd := mapM_option_some hds
  have fu := mapM_option_some hus
  have fc := mapM_option_some hcs
  refine ⟨fun d hd => ?_, fun u hu => ?_, fun c hc' => ?_⟩
  · obtain ⟨a, ha, he⟩ := forall₂_mem_right fd hd
    obtain ⟨r, _, rfl⟩ := Option.map_eq_some_iff.1 he
    rw [← hc.dimensions, List.mem_filterMap] at ha
    obtain ⟨e, he, hee⟩ := ha
    obtain ⟨te, hte⟩ := hmem e he
    cases e <;> simp at hee
    subst hee
    exact hte.1
  · obtain ⟨a, ha, he⟩ := forall₂_mem_right fu hu
    obtain ⟨r, _, rfl⟩ := Option.map_eq_some_iff.1 he
    rw [← hc.units, List.mem_filterMap] at ha
    obtain ⟨e, he, hee⟩ := ha
    obtain ⟨te, hte⟩ := hmem e he
    cases e <;> simp at hee
    subst hee
    obtain ⟨as, ta, tn, td, h1, h2, h3, h4, h5, _⟩ := hte
    refine ⟨h2, fun x hx => ?_⟩
    rw [h5] at hx
    exact attrs_aliases h1 hx
  · obtain ⟨a, ha, he⟩ := forall₂_mem_right fc hc'
    obtain ⟨r, _, rfl⟩ := Option.map_eq_some_iff.1 he
    rw [← hc.constants, List.mem_filterMap] at ha
    obtain ⟨e, he, hee⟩ := ha
    obtain ⟨te, hte⟩ := hmem e he
    cases e <;> simp at hee
    subst hee
    exact hte.1

/-! ### Concrete systems -/
section Examples
attribute [local instance] Sample.exactMag

/-- The sample system with other type names. -/
def otherNames : UnresolvedTemplates Int ℚ :=
  ⟨[str!"Dim"], [str!"Q"], [⟨str!"Length", .base ()⟩], [Sample.baseUnit (str!"meters") (str!"m") (str!"Length") []], []⟩

/-- A base dimension whose field is a keyword. -/
def keywordField : UnresolvedTemplates Int ℚ :=
  ⟨[str!"Dimension"], [str!"Quantity"], [⟨str!"Type", .base ()⟩], [Sample.baseUnit (str!"letters") (str!"m") (str!"Type") []], []⟩

/-- A dimension called like an imported name. -/
def exponentDimension : UnresolvedTemplates Int ℚ :=
  ⟨[str!"Dimension"], [str!"Quantity"], [⟨str!"Exponent", .base ()⟩], [Sample.baseUnit (str!"e") (str!"e") (str!"Exponent") []], []⟩

theorem accepted_of_fuel {t : UnresolvedTemplates Int ℚ}
    (h : (resolveDefsFuel (UnresolvedTemplates.expand 1 Sample.exactFactor t)).map Prod.snd = some []) :
    ∃ defs, runUnitSystem Sample.exactFactor t = some (defs, []) := by
  unfold runUnitSystem
  rw [resolveDefs_eq_fuel]
  change ∃ defs, resolveDefsFuel (UnresolvedTemplates.expand 1 Sample.exactFactor t) = some (defs, [])
  cases hr : resolveDefsFuel (UnresolvedTemplates.expand 1 Sample.exactFactor t) with
  | none => rw [hr] at h; simp at h
  | some p => rw [hr] at h; simp at h; exact ⟨p.1, by rw [← h]⟩

/-- **C49 (the claim of the documentation fails).** `quantity_type NAME` and `dimension_type NAME` are documented to choose the
names of the types, and the macro accepts other names than `Quantity` and `Dimension`, but the generated code then does not
compile: it imports the two usual names. -/
theorem C49_other_names : ∃ defs, runUnitSystem Sample.exactFactor otherNames = some (defs, []) ∧
    ∀ features, ¬ (emit features defs).Legal := by
  obtain ⟨defs, h⟩ := accepted_of_fuel (t := otherNames) (by decide +kernel)
  refine ⟨defs, h, fun f hl => ?_⟩
  have := (C49_legal_iff _ _ _ h ⟨by simp [otherNames]; unfold IsIdent; decide +kernel,
    by simp [otherNames, Sample.baseUnit]; unfold IsIdent; decide +kernel, by simp [otherNames]⟩ f).1 hl
  exact absurd this.quantityType (by simp [otherNames])

/-- **C49.** Names that are ordinary identifiers, are accepted, and lead to code that does not compile: a base dimension `Type`
(its field would be called `type`) and a dimension `Exponent`. -/
theorem C49_reserved : (∃ defs, runUnitSystem Sample.exactFactor keywordField = some (defs, []) ∧
      ∀ features, ¬ (emit features defs).Legal) ∧
    ∃ defs, runUnitSystem Sample.exactFactor exponentDimension = some (defs, []) ∧ ∀ features, ¬ (emit features defs).Legal := by
  constructor
  · obtain ⟨defs, h⟩ := accepted_of_fuel (t := keywordField) (by decide +kernel)
    refine ⟨defs, h, fun f hl => ?_⟩
    have := (C49_legal_iff _ _ _ h ⟨by simp [keywordField]; unfold IsIdent; decide +kernel,
      by simp [keywordField, Sample.baseUnit]; unfold IsIdent; decide +kernel, by simp [keywordField]⟩ f).1 hl
    exact absurd (this.keywords ⟨str!"Type", .base ()⟩ (by simp [keywordField]) rfl) (by unfold IsIdent; decide +kernel)
  · obtain ⟨defs, h⟩ := accepted_of_fuel (t := exponentDimension) (by decide +kernel)
    refine ⟨defs, h, fun f hl => ?_⟩
    have := (C49_legal_iff _ _ _ h ⟨by simp [exponentDimension]; unfold IsIdent; decide +kernel,
      by simp [exponentDimension, Sample.baseUnit]; unfold IsIdent; decide +kernel, by simp [exponentDimension]⟩ f).1 hl
    exact absurd (this.dimensions ⟨str!"Exponent", .base ()⟩ (by simp [exponentDimension])) (by simp)

/-- The sample system is accepted, has identifiers as names, and they work: the generated code is legal. -/
example : ∃ defs, runUnitSystem Sample.exactFactor Sample.sample = some (defs, []) ∧ ∀ features, (emit features defs).Legal := by
  obtain ⟨defs, h⟩ := Sample.sample_accepted
  refine ⟨defs, h, fun f => (C49_legal_iff _ _ _ h ⟨?_, ?_, ?_⟩ f).2 ⟨rfl, rfl, ?_, ?_, ?_, ?_, ?_⟩⟩
  · intro d hd
    have := List.mem_map_of_mem (f := DimensionEntry.name) hd
    revert this; generalize d.name = x; revert x; unfold IsIdent; decide +kernel
  · intro u hu
    have := List.mem_map_of_mem (f := fun u => (UnitTemplate.name u, UnitTemplate.aliases u)) hu
    revert this; generalize u.name = x; generalize u.aliases = y
    intro h
    have key : ∀ z ∈ Sample.sample.units.map (fun u => (UnitTemplate.name u, UnitTemplate.aliases u)), IsIdent z.1 ∧
      ∀ a ∈ z.2, IsIdent a := by unfold IsIdent; decide +kernel
    exact key _ h
  · intro d hd
    have := List.mem_map_of_mem (f := ConstantEntry.name) hd
    revert this; generalize d.name = x; revert x; unfold IsIdent; decide +kernel
  · intro d hd
    have := List.mem_map_of_mem (f := DimensionEntry.name) hd
    revert this; generalize d.name = x; revert x; decide +kernel
  · intro u hu
    have := List.mem_map_of_mem (f := fun u => (UnitTemplate.name u, UnitTemplate.aliases u)) hu
    revert this; generalize u.name = x; generalize u.aliases = y
    intro h
    have key : ∀ z ∈ Sample.sample.units.map (fun u => (UnitTemplate.name u, UnitTemplate.aliases u)), z.1 ≠ str!"Unit" ∧
      str!"Unit" ∉ z.2 := by decide +kernel
    exact key _ h
  · intro d hd
    have := List.mem_map_of_mem (f := ConstantEntry.name) hd
    revert this; generalize d.name = x; revert x; decide +kernel
  · intro d hd e he _ _
    have h1 := List.mem_map_of_mem (f := DimensionEntry.name) hd
    have h2 := List.mem_map_of_mem (f := DimensionEntry.name) he
    revert h1 h2; generalize d.name = x; generalize e.name = y
    have key : ∀ x ∈ Sample.sample.dimensions.map DimensionEntry.name, ∀ y ∈ Sample.sample.dimensions.map DimensionEntry.name,
      toSnakecase x = toSnakecase y → x = y := by decide +kernel
    exact fun h1 h2 => key x h1 y h2
  · intro d hd _
    have := List.mem_map_of_mem (f := DimensionEntry.name) hd
    revert this; generalize d.name = x; revert x; unfold IsIdent; decide +kernel

end Examples
end Diman
