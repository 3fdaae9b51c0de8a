import Verif.Props.C09
/-!
# C10 Nothing is dropped silently
-/
set_option linter.unusedSectionVars false
namespace Diman

/-- The names and symbols a unit statement introduces: every prefix (or none) with every alias (or the name itself); aliases
carry no symbol, prefixed names the prefixed symbol. -/
def UnitTemplate.promised {E M : Type} (v : UnitTemplate E M) : List (Str × Option Str) :=
  (none :: v.prefixes.map some).flatMap fun pre => (none :: v.aliases.map some).map fun al =>
    match pre, al with
    | none, none => (v.name, v.symbol)
    | some p, none => (p.name ++ v.name, v.symbol.map (p.short ++ ·))
    | none, some a => (a, none)
    | some p, some a => (p.name ++ a, none)

section
variable {E M : Type} [Exponent E] [MagOps E M]

theorem perm_rot {α : Type} (a : α) (l : List α) : (l ++ [a]).Perm (a :: l) := by
  simpa using List.perm_append_comm (l₁ := l) (l₂ := [a])

theorem perm_flatMap {α β : Type} (l : List α) {f g : α → List β} (h : ∀ a ∈ l, (f a).Perm (g a)) :
    (l.flatMap f).Perm (l.flatMap g) := by
  induction l with
  | nil => exact .refl _
  | cons a l ih =>
    simp only [List.flatMap_cons]
    exact (h a (by simp)).append (ih fun b hb => h b (by simp [hb]))

/-- Expansion of a unit statement introduces exactly the promised names and symbols. -/
theorem expand_promised (one : M) (factor : Prefix → M) (v : UnitTemplate E M) :
    ((v.expand one factor).map fun x => (x.name, x.symbol)).Perm v.promised := by
  unfold UnitTemplate.expand UnitTemplate.promised
  rw [List.map_flatMap]
  refine ((perm_rot none (v.prefixes.map some)).flatMap_right _).trans (perm_flatMap _ fun pre _ => ?_)
  rw [List.map_map]
  refine ((perm_rot none (v.aliases.map some)).map _).trans (.of_eq (List.map_congr_left fun al _ => ?_))
  cases pre <;> cases al <;> simp [UnitTemplate.expandOne, UnitTemplate.formatName, UnitTemplate.formatSymbol]

theorem map_fst_nodup {α β : Type} {l : List (α × β)} (h : (l.map Prod.fst).Nodup) : l.Nodup := h.of_map _

/-- **C10.** If a unit system is accepted, the generated definitions are, up to order and each exactly once, the dimensions of the
input, the constants of the input, and for every unit statement every prefixed and aliased unit it promises, with its symbol;
all generated names are distinct. -/
theorem C10_complete (factor : Prefix → M) (t : UnresolvedTemplates E M) (defs : Defs E M)
    (accepted : runUnitSystem factor t = some (defs, [])) :
    (defs.dimensions.map DimensionDef.name).Perm (t.dimensions.map DimensionEntry.name) ∧
    (defs.units.map fun U => (U.name, U.symbol)).Perm (t.units.flatMap UnitTemplate.promised) ∧
    (defs.constants.map ConstantDef.name).Perm (t.constants.map ConstantEntry.name) ∧
    defs.names.Nodup := by
  obtain ⟨res, h⟩ := accepted_of_run accepted
  have hn := h.nodup
  unfold Unresolved.names at hn
  have hu : (defs.units.map fun U => (U.name, U.symbol)).Perm
      ((UnresolvedTemplates.expand (MagOps.one E) factor t).units.map fun x => (x.name, x.symbol)) := by
    rw [List.perm_ext_iff_of_nodup]
    · intro p
      simp only [List.mem_map]
      constructor
      · rintro ⟨U, hU, rfl⟩
        obtain ⟨x, hx, dm, g, rfl⟩ := h.unit_from hU
        exact ⟨x, hx, rfl⟩
      · rintro ⟨x, hx, rfl⟩
        obtain ⟨dm, g, _, hm⟩ := h.unit_val hx
        exact ⟨_, hm, rfl⟩
    · apply map_fst_nodup; rw [List.map_map]; exact h.unit_nodup
    · apply map_fst_nodup; rw [List.map_map]
      exact ((List.nodup_append.1 (List.nodup_append.1 hn).1).2.1)
  have hd : (defs.dimensions.map DimensionDef.name).Perm (t.dimensions.map DimensionEntry.name) := by
    refine (List.perm_ext_iff_of_nodup h.dim_nodup ((List.nodup_append.1 (List.nodup_append.1 hn).1).1)).2 ?_
    intro p
    simp only [List.mem_map]
    constructor
    · rintro ⟨U, hU, rfl⟩
      obtain ⟨x, hx, dm, g, rfl⟩ := h.dim_from hU
      exact ⟨x, hx, rfl⟩
    · rintro ⟨x, hx, rfl⟩
      obtain ⟨dm, g, _, hm⟩ := h.dim_val hx
      exact ⟨_, hm, rfl⟩
  have hc : (defs.constants.map ConstantDef.name).Perm (t.constants.map ConstantEntry.name) := by
    refine (List.perm_ext_iff_of_nodup h.const_nodup ((List.nodup_append.1 hn).2.1)).2 ?_
    intro p
    simp only [List.mem_map]
    constructor
    · rintro ⟨U, hU, rfl⟩
      obtain ⟨x, hx, dm, g, rfl⟩ := h.const_from hU
      exact ⟨x, hx, rfl⟩
    · rintro ⟨x, hx, rfl⟩
      obtain ⟨dm, g, _, hm⟩ := h.const_val hx
      exact ⟨_, hm, rfl⟩
  refine ⟨hd, hu.trans ?_, hc, ?_⟩
  · simp only [UnresolvedTemplates.expand]
    rw [List.map_flatMap]
    exact perm_flatMap _ fun v _ => expand_promised _ _ v
  · refine (List.Perm.nodup_iff ?_).1 hn
    unfold Defs.names
    refine (hd.symm.append ?_).append hc.symm
    have := hu.symm.map Prod.fst
    simpa [List.map_map, Function.comp_def] using this

end

-- The hypothesis is met by the example system of the repository's tests: 11 dimensions, 27 units, 3 constants.
section
attribute [local instance] Sample.exactMag
example : (∃ defs, runUnitSystem Sample.exactFactor Sample.sample = some (defs, [])) ∧
    (Sample.sample.units.flatMap UnitTemplate.promised).length = 27 := ⟨Sample.sample_accepted, by decide⟩
end
end Diman
