import Verif.Proofs.Eval
/-! Lemmas about template expansion. -/
set_option linter.unusedSectionVars false
namespace Diman
variable {E M : Type}

theorem UnitTemplate.mem_expand {one : M} {factor : Prefix → M} {u : UnitTemplate E M} {x : UnitEntry E M} :
    x ∈ u.expand one factor ↔ ∃ pre al, (pre = none ∨ ∃ p ∈ u.prefixes, pre = some p) ∧
      (al = none ∨ ∃ a ∈ u.aliases, al = some a) ∧ x = u.expandOne one factor pre al := by
  unfold UnitTemplate.expand
  simp only [List.mem_flatMap, List.mem_append, List.mem_map, List.mem_singleton]
  constructor
  · rintro ⟨pre, hpre, al, hal, rfl⟩
    refine ⟨pre, al, ?_, ?_, rfl⟩
    · rcases hpre with ⟨p, hp, rfl⟩ | rfl
      · exact .inr ⟨p, hp, rfl⟩
      · exact .inl rfl
    · rcases hal with ⟨p, hp, rfl⟩ | rfl
      · exact .inr ⟨p, hp, rfl⟩
      · exact .inl rfl
  · rintro ⟨pre, al, hpre, hal, rfl⟩
    refine ⟨pre, ?_, al, ?_, rfl⟩
    · rcases hpre with rfl | ⟨p, hp, rfl⟩
      · exact .inr rfl
      · exact .inl ⟨p, hp, rfl⟩
    · rcases hal with rfl | ⟨p, hp, rfl⟩
      · exact .inr rfl
      · exact .inl ⟨p, hp, rfl⟩

/-- The unit itself is always among the generated ones. -/
theorem UnitTemplate.self_mem_expand {one : M} {factor : Prefix → M} (u : UnitTemplate E M) :
    (⟨u.name, u.symbol, u.annotation, u.definition, none⟩ : UnitEntry E M) ∈ u.expand one factor :=
  mem_expand.2 ⟨none, none, .inl rfl, .inl rfl, rfl⟩

theorem UnitTemplate.expandOne_auto {one : M} {factor : Prefix → M} (u : UnitTemplate E M) (pre al) :
    (u.expandOne one factor pre al).autogeneratedFrom = if pre.isSome || al.isSome then some u.name else none := rfl

theorem expand_autoOk (one : M) (factor : Prefix → M) (t : UnresolvedTemplates E M) :
    (UnresolvedTemplates.expand one factor t).AutoOk := by
  intro x hx o ho
  simp only [UnresolvedTemplates.expand, List.mem_flatMap] at hx
  obtain ⟨u, hu, hx⟩ := hx
  obtain ⟨pre, al, _, _, rfl⟩ := UnitTemplate.mem_expand.1 hx
  rw [UnitTemplate.expandOne_auto] at ho
  split at ho
  · injection ho with ho; subst ho
    simp only [UnresolvedTemplates.expand, List.mem_map, List.mem_flatMap]
    exact ⟨_, ⟨u, hu, u.self_mem_expand⟩, rfl⟩
  · simp at ho

/-- Generated (prefixed or aliased) units are never base units, and mention the unit they come from. -/
theorem expand_auto {one : M} {factor : Prefix → M} {t : UnresolvedTemplates E M} {x : UnitEntry E M}
    (hx : x ∈ (UnresolvedTemplates.expand one factor t).units) {o : Str} (ho : x.autogeneratedFrom = some o) :
    ∃ f, x.definition = .expression (.binary (.value (.value (.concrete f))) .mul (.value (.other o))) := by
  simp only [UnresolvedTemplates.expand, List.mem_flatMap] at hx
  obtain ⟨u, hu, hx⟩ := hx
  obtain ⟨pre, al, _, _, rfl⟩ := UnitTemplate.mem_expand.1 hx
  rw [UnitTemplate.expandOne_auto] at ho
  split at ho
  · rename_i hpa
    injection ho with ho; subst ho
    unfold UnitTemplate.expandOne UnitTemplate.getDefinition
    have hne : (al.isNone && pre.isNone) = false := by
      cases pre <;> cases al <;> simp_all
    simp [hne]
  · simp at ho

theorem expand_base {one : M} {factor : Prefix → M} {t : UnresolvedTemplates E M} {x : UnitEntry E M}
    (hx : x ∈ (UnresolvedTemplates.expand one factor t).units) {d : Str} (hd : x.definition = .base d) :
    x.autogeneratedFrom = none := by
  cases ho : x.autogeneratedFrom with
  | none => rfl
  | some o => obtain ⟨f, hf⟩ := expand_auto hx ho; rw [hf] at hd; simp at hd

theorem accepted_of_run [Exponent E] [MagOps E M] {defs : Defs E M} {factor : Prefix → M} {t : UnresolvedTemplates E M} (h : runUnitSystem factor t = some (defs, [])) :
    ∃ res, Accepted (UnresolvedTemplates.expand (MagOps.one E) factor t) defs res :=
  (accepted_iff (expand_autoOk _ _ t)).1 h

end Diman
