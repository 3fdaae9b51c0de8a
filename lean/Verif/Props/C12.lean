import Verif.Props.C09
/-!
# C12 Definitions only mention the allowed kinds
-/
set_option linter.unusedSectionVars false
namespace Diman

/-- `x` names a dimension of the unit system. -/
def Unresolved.NamesDimension {E M : Type} (u : UnresolvedDefs E M) (x : Str) : Prop := ∃ d ∈ u.dimensions, d.name = x
/-- `x` names a unit or a constant of the unit system. -/
def Unresolved.NamesUnitOrConstant {E M : Type} (u : UnresolvedDefs E M) (x : Str) : Prop :=
  (∃ v ∈ u.units, v.name = x) ∨ ∃ c ∈ u.constants, c.name = x

/-- All definitions obey the kind rules: dimensions are defined from dimensions, base units from a dimension, other units and
constants from units and constants. -/
def Unresolved.KindsOk {E M : Type} (u : UnresolvedDefs E M) : Prop :=
  (∀ d ∈ u.dimensions, ∀ x ∈ d.mentions, u.NamesDimension x) ∧
  (∀ v ∈ u.units, ∀ x ∈ v.mentions, match v.definition with
    | .base _ => u.NamesDimension x
    | .expression _ => u.NamesUnitOrConstant x) ∧
  (∀ c ∈ u.constants, ∀ x ∈ c.mentions, u.NamesUnitOrConstant x)

section
variable {E M : Type} [Exponent E] [MagOps E M]

theorem kinds_iff {u : UnresolvedDefs E M} (hn : u.names.Nodup) (hd : ∀ i ∈ allItems u, ∀ x ∈ i.refs, x ∈ u.names) :
    (∀ i ∈ allItems u, ∀ j ∈ allItems u, j.ident ∈ i.refs → i.kind.allows j.kind = true) ↔ u.KindsOk := by
  have hn' : ((allItems u).map Item.ident).Nodup := by rwa [allItems_ident]
  have dimItem : ∀ {d}, d ∈ u.dimensions → Item.ofDimension (M := M) d ∈ allItems u := fun h => mem_allItems.2 (.inl ⟨_, h, rfl⟩)
  have unitItem : ∀ {v}, v ∈ u.units → Item.ofUnit v ∈ allItems u := fun h => mem_allItems.2 (.inr (.inl ⟨_, h, rfl⟩))
  have constItem : ∀ {c}, c ∈ u.constants → Item.ofConstant c ∈ allItems u := fun h => mem_allItems.2 (.inr (.inr ⟨_, h, rfl⟩))
  have hfind : ∀ i ∈ allItems u, ∀ x ∈ i.refs, ∃ j ∈ allItems u, j.ident = x := by
    intro i hi x hx
    have := hd i hi x hx
    rw [← allItems_ident] at this
    exact List.mem_map.1 this
  have isDim : ∀ j ∈ allItems u, j.kind = .dimension → u.NamesDimension j.ident := by
    intro j hj hk
    rcases mem_allItems.1 hj with ⟨d, hd, rfl⟩ | ⟨w, hw, rfl⟩ | ⟨c, hc, rfl⟩
    · exact ⟨d, hd, rfl⟩
    · cases hw' : w.definition <;> simp [Item.kind, Item.ofUnit, hw'] at hk
    · simp [Item.kind, Item.ofConstant] at hk
  have isUnit : ∀ j ∈ allItems u, j.kind ≠ .dimension → u.NamesUnitOrConstant j.ident := by
    intro j hj hk
    rcases mem_allItems.1 hj with ⟨d, hd, rfl⟩ | ⟨w, hw, rfl⟩ | ⟨c, hc, rfl⟩
    · simp [Item.kind, Item.ofDimension] at hk
    · exact .inl ⟨w, hw, rfl⟩
    · exact .inr ⟨c, hc, rfl⟩
  have ofDim : ∀ j ∈ allItems u, u.NamesDimension j.ident → j.kind = .dimension := by
    rintro j hj ⟨d, hd, he⟩
    have := item_unique hn' (dimItem hd) hj he
    subst this; rfl
  have ofUC : ∀ j ∈ allItems u, u.NamesUnitOrConstant j.ident → j.kind ≠ .dimension := by
    rintro j hj (⟨d, hd, he⟩ | ⟨d, hd, he⟩)
    · have := item_unique hn' (unitItem hd) hj he
      subst this
      cases hw' : d.definition <;> simp [Item.kind, Item.ofUnit, hw']
    · have := item_unique hn' (constItem hd) hj he
      subst this; simp [Item.kind, Item.ofConstant]
  have allowsU : ∀ k : Kind, Kind.allows .unit k = true ↔ k ≠ .dimension := by intro k; cases k <;> simp [Kind.allows]
  have allowsC : ∀ k : Kind, Kind.allows .constant k = true ↔ k ≠ .dimension := by intro k; cases k <;> simp [Kind.allows]
  have allowsD : ∀ k : Kind, Kind.allows .dimension k = true ↔ k = .dimension := by intro k; cases k <;> simp [Kind.allows]
  have allowsB : ∀ k : Kind, Kind.allows .baseUnit k = true ↔ k = .dimension := by intro k; cases k <;> simp [Kind.allows]
  constructor
  · intro h
    refine ⟨fun d hd' x hx => ?_, fun v hv x hx => ?_, fun c hc x hx => ?_⟩
    · have hx' : x ∈ (Item.ofDimension (M := M) d).refs := by rwa [ofDimension_refs]
      obtain ⟨j, hj, rfl⟩ := hfind _ (dimItem hd') x hx'
      exact isDim j hj ((allowsD _).1 (h _ (dimItem hd') j hj hx'))
    · have hx' : x ∈ (Item.ofUnit v).refs := by rwa [ofUnit_refs]
      obtain ⟨j, hj, rfl⟩ := hfind _ (unitItem hv) x hx'
      have hal := h _ (unitItem hv) j hj hx'
      cases hw' : v.definition with
      | base d =>
        rw [ofUnit_kind_base hw'] at hal
        exact isDim j hj ((allowsB _).1 hal)
      | expression e =>
        rw [ofUnit_kind_expression hw'] at hal
        exact isUnit j hj ((allowsU _).1 hal)
    · have hx' : x ∈ (Item.ofConstant c).refs := by rwa [ofConstant_refs]
      obtain ⟨j, hj, rfl⟩ := hfind _ (constItem hc) x hx'
      exact isUnit j hj ((allowsC _).1 (h _ (constItem hc) j hj hx'))
  · rintro ⟨h1, h2, h3⟩ i hi j hj hij
    rcases mem_allItems.1 hi with ⟨d, hd', rfl⟩ | ⟨w, hw, rfl⟩ | ⟨c, hc, rfl⟩
    · rw [ofDimension_refs] at hij
      exact (allowsD _).2 (ofDim j hj (h1 d hd' _ hij))
    · rw [ofUnit_refs] at hij
      have := h2 w hw _ hij
      cases hw' : w.definition with
      | base d =>
        rw [hw'] at this
        rw [ofUnit_kind_base hw']
        exact (allowsB _).2 (ofDim j hj this)
      | expression e =>
        rw [hw'] at this
        rw [ofUnit_kind_expression hw']
        exact (allowsU _).2 (ofUC j hj this)
    · rw [ofConstant_refs] at hij
      exact (allowsC _).2 (ofUC j hj (h3 c hc _ hij))

/-- **C12.** In an accepted unit system dimensions are defined only from dimensions, base units only from a dimension, and all
other units and constants only from units and constants. (Contrapositive: any violation yields an error.) -/
theorem C12_kinds (factor : Prefix → M) (t : UnresolvedTemplates E M) (defs : Defs E M)
    (accepted : runUnitSystem factor t = some (defs, [])) :
    (UnresolvedTemplates.expand (MagOps.one E) factor t).KindsOk := by
  obtain ⟨res, h⟩ := accepted_of_run accepted
  exact (kinds_iff h.nodup h.defined).1 h.kinds

/-- **C12, the report.** If all mentioned names are defined and distinct, a kind error is reported if and only if some definition
violates the kind rules: no false alarms. -/
theorem C12_reported_iff (factor : Prefix → M) (t : UnresolvedTemplates E M) (defs : Defs E M) (ds : List Diag)
    (run : runUnitSystem factor t = some (defs, ds))
    (distinct : (UnresolvedTemplates.expand (MagOps.one E) factor t).names.Nodup)
    (defined : ∀ x rs, (x, rs) ∈ (UnresolvedTemplates.expand (MagOps.one E) factor t).definitions →
      ∀ y ∈ rs, y ∈ (UnresolvedTemplates.expand (MagOps.one E) factor t).names) :
    (∃ lhs rhs k1 k2, Diag.kindNotAllowed lhs rhs k1 k2 ∈ ds) ↔
      ¬ (UnresolvedTemplates.expand (MagOps.one E) factor t).KindsOk := by
  obtain ⟨res, d4, _, _, _, _, _, hk, _⟩ := diag_origin run
  have hdef : ∀ i ∈ allItems (UnresolvedTemplates.expand (MagOps.one E) factor t), ∀ y ∈ i.refs,
      y ∈ (UnresolvedTemplates.expand (MagOps.one E) factor t).names := by
    intro i hi y hy
    refine defined i.ident i.refs ?_ y hy
    rw [← itemDefs_allItems]
    exact mem_itemDefs.2 ⟨i, hi, rfl, rfl⟩
  have hu : (filterUndefined (allItems (UnresolvedTemplates.expand (MagOps.one E) factor t))).2 = [] := by
    rw [filterUndefined_nil, allItems_ident]; exact hdef
  have hau := allItems_autoOk (expand_autoOk (MagOps.one E) factor t)
  rw [filterUndefined_eq hu, filterAutogenerated_eq hau, filterAutogenerated_eq hau] at hk
  rw [← kinds_iff distinct hdef, ← checkKinds_nil (by rw [allItems_ident]; exact distinct)]
  constructor
  · rintro ⟨a, b, c, d, h⟩ h0
    rw [hk _ rfl, h0] at h; simp at h
  · intro h
    obtain ⟨x, hx⟩ := List.exists_mem_of_ne_nil _ h
    have htag := tag_checkKinds hx
    have : x ∈ ds := (hk _ htag).2 hx
    cases x <;> simp [Diag.tag] at htag
    exact ⟨_, _, _, _, this⟩

end

/-! ### The hypotheses are met -/
section
attribute [local instance] Sample.exactMag
open Sample
example : ∃ defs, runUnitSystem exactFactor sample = some (defs, []) := sample_accepted

/-- A constant defined from a dimension and a base unit defined from a unit. -/
def kindViolation : UnresolvedTemplates Int ℚ where
  quantityTypes := [str!"Q"]
  dimensionTypes := [str!"D"]
  dimensions := [⟨str!"Length", .base ()⟩, ⟨str!"Area", .expression (.value (v (str!"meters")))⟩]
  units := [baseUnit (str!"meters") (str!"m") (str!"Length") []]
  constants := [⟨str!"C", .value (v (str!"Length")), none⟩]

theorem kindViolation_run : ∃ defs, runUnitSystem exactFactor kindViolation =
    some (defs, [.kindNotAllowed (str!"Area") (str!"meters") .dimension .baseUnit,
      .kindNotAllowed (str!"C") (str!"Length") .constant .dimension]) := by
  have h : (resolveDefsFuel (UnresolvedTemplates.expand 1 exactFactor kindViolation)).map Prod.snd =
    some [.kindNotAllowed (str!"Area") (str!"meters") .dimension .baseUnit,
      .kindNotAllowed (str!"C") (str!"Length") .constant .dimension] := by decide +kernel
  unfold runUnitSystem
  rw [resolveDefs_eq_fuel]
  change ∃ defs, resolveDefsFuel (UnresolvedTemplates.expand 1 exactFactor kindViolation) = some (defs, _)
  cases hr : resolveDefsFuel (UnresolvedTemplates.expand 1 exactFactor kindViolation) with
  | none => rw [hr] at h; simp at h
  | some p => rw [hr] at h; simp at h; exact ⟨p.1, by rw [← h]⟩

example : (UnresolvedTemplates.expand 1 exactFactor kindViolation).names.Nodup ∧
    ∀ p ∈ (UnresolvedTemplates.expand 1 exactFactor kindViolation).definitions,
      ∀ y ∈ p.2, y ∈ (UnresolvedTemplates.expand 1 exactFactor kindViolation).names := by decide
end
end Diman
