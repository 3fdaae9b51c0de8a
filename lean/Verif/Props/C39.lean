import Verif.Props.C09
/-!
# C39 Undefined identifiers are reported by name, and only they
-/
set_option linter.unusedSectionVars false
namespace Diman
section
variable {E M : Type} [Exponent E] [MagOps E M]

theorem mem_filterUndefined_report {l : List (Item E M)} {y : Str} :
    (∃ ids, Diag.undefined ids ∈ (filterUndefined l).2 ∧ y ∈ ids) ↔
      ∃ i ∈ l, (i.refs.filter fun z => !(l.map Item.ident).contains z).head? = some y := by
  have hf : ∀ i : Item E M, firstUndefined (l.map Item.ident) i = (i.refs.filter fun z => !(l.map Item.ident).contains z).head? := by
    intro i; unfold firstUndefined; rw [List.head?_filter]
  unfold filterUndefined unresolvedIdents
  simp only
  constructor
  · rintro ⟨ids, h, hy⟩
    split at h
    · simp at h
    · simp only [List.mem_singleton, Diag.undefined.injEq] at h
      subst h
      obtain ⟨i, hi, he⟩ := List.mem_filterMap.1 hy
      exact ⟨i, hi, by rw [← hf]; exact he⟩
  · rintro ⟨i, hi, he⟩
    have hm : y ∈ l.filterMap (firstUndefined (l.map Item.ident)) := List.mem_filterMap.2 ⟨i, hi, by rw [hf]; exact he⟩
    refine ⟨_, ?_, hm⟩
    rw [if_neg]
    · exact List.mem_singleton.2 rfl
    · intro hc
      rw [List.isEmpty_iff] at hc
      rw [hc] at hm; simp at hm

/-- **C39, exactly what is reported.** An identifier is reported as undefined if and only if it is the first identifier without a
definition mentioned in some definition. Missing for the full property: the second and later undefined identifiers of the same
definition are not reported (`C39_second_not_reported`). -/
theorem C39_reported_iff_partial (factor : Prefix → M) (t : UnresolvedTemplates E M) (defs : Defs E M) (ds : List Diag)
    (run : runUnitSystem factor t = some (defs, ds)) (y : Str) :
    (∃ ids, Diag.undefined ids ∈ ds ∧ y ∈ ids) ↔
      ∃ x rs, (x, rs) ∈ (UnresolvedTemplates.expand (MagOps.one E) factor t).definitions ∧
        (rs.filter fun z => decide (z ∉ (UnresolvedTemplates.expand (MagOps.one E) factor t).names)).head? = some y := by
  obtain ⟨res, d4, _, _, _, hm, _⟩ := diag_origin run
  have h1 : (∃ ids, Diag.undefined ids ∈ ds ∧ y ∈ ids) ↔
      (∃ ids, Diag.undefined ids ∈ (filterUndefined (allItems (UnresolvedTemplates.expand (MagOps.one E) factor t))).2 ∧ y ∈ ids) :=
    exists_congr fun ids => and_congr_left fun _ => hm _ rfl
  rw [h1, mem_filterUndefined_report, ← itemDefs_allItems, allItems_ident]
  have hfun : (fun z => !(UnresolvedTemplates.expand (MagOps.one E) factor t).names.contains z) =
      fun z => decide (z ∉ (UnresolvedTemplates.expand (MagOps.one E) factor t).names) := by
    funext z; simp
  rw [hfun]
  constructor
  · rintro ⟨i, hi, he⟩
    exact ⟨i.ident, i.refs, mem_itemDefs.2 ⟨i, hi, rfl, rfl⟩, he⟩
  · rintro ⟨x, rs, hm, he⟩
    obtain ⟨i, hi, hi1, rfl⟩ := mem_itemDefs.1 hm
    exact ⟨i, hi, he⟩

/-- **C39, no false report.** Only identifiers that are mentioned in some definition and defined nowhere are reported. -/
theorem C39_only_undefined (factor : Prefix → M) (t : UnresolvedTemplates E M) (defs : Defs E M) (ds : List Diag)
    (run : runUnitSystem factor t = some (defs, ds)) (ids : List Str) (report : Diag.undefined ids ∈ ds) (y : Str) (hy : y ∈ ids) :
    y ∉ (UnresolvedTemplates.expand (MagOps.one E) factor t).names ∧
    ∃ x rs, (x, rs) ∈ (UnresolvedTemplates.expand (MagOps.one E) factor t).definitions ∧ y ∈ rs := by
  obtain ⟨x, rs, hm, he⟩ := (C39_reported_iff_partial factor t defs ds run y).1 ⟨ids, report, hy⟩
  have := List.mem_of_head? he
  rw [List.mem_filter, decide_eq_true_eq] at this
  exact ⟨this.2, x, rs, hm, this.1⟩

/-- **C39, no silence.** If any definition mentions an identifier that is defined nowhere, some undefined identifier *of that
definition* is reported; in particular the system is not accepted. -/
theorem C39_never_silent (factor : Prefix → M) (t : UnresolvedTemplates E M) (defs : Defs E M) (ds : List Diag)
    (run : runUnitSystem factor t = some (defs, ds)) (x : Str) (rs : List Str)
    (hx : (x, rs) ∈ (UnresolvedTemplates.expand (MagOps.one E) factor t).definitions)
    (y : Str) (hy : y ∈ rs) (undef : y ∉ (UnresolvedTemplates.expand (MagOps.one E) factor t).names) :
    ∃ ids, Diag.undefined ids ∈ ds ∧ ∃ z ∈ rs, z ∉ (UnresolvedTemplates.expand (MagOps.one E) factor t).names ∧ z ∈ ids := by
  have hne : y ∈ rs.filter fun z => decide (z ∉ (UnresolvedTemplates.expand (MagOps.one E) factor t).names) :=
    List.mem_filter.2 ⟨hy, by simpa using undef⟩
  obtain ⟨z, hz⟩ : ∃ z, (rs.filter fun z => decide (z ∉ (UnresolvedTemplates.expand (MagOps.one E) factor t).names)).head? = some z := by
    cases h : rs.filter fun z => decide (z ∉ (UnresolvedTemplates.expand (MagOps.one E) factor t).names) with
    | nil => rw [h] at hne; simp at hne
    | cons a l => exact ⟨a, rfl⟩
  obtain ⟨ids, h1, h2⟩ := (C39_reported_iff_partial factor t defs ds run z).2 ⟨x, rs, hx, hz⟩
  have := List.mem_of_head? hz
  rw [List.mem_filter, decide_eq_true_eq] at this
  exact ⟨ids, h1, z, this.1, this.2, h2⟩

/-- Every identifier of a definition with a single undefined identifier is reported: then the report is complete. -/
theorem C39_complete_if_single_partial (factor : Prefix → M) (t : UnresolvedTemplates E M) (defs : Defs E M) (ds : List Diag)
    (run : runUnitSystem factor t = some (defs, ds))
    (single : ∀ x rs, (x, rs) ∈ (UnresolvedTemplates.expand (MagOps.one E) factor t).definitions → ∀ y ∈ rs, ∀ z ∈ rs,
      y ∉ (UnresolvedTemplates.expand (MagOps.one E) factor t).names →
      z ∉ (UnresolvedTemplates.expand (MagOps.one E) factor t).names → y = z) (y : Str) :
    (∃ ids, Diag.undefined ids ∈ ds ∧ y ∈ ids) ↔ y ∉ (UnresolvedTemplates.expand (MagOps.one E) factor t).names ∧
      ∃ x rs, (x, rs) ∈ (UnresolvedTemplates.expand (MagOps.one E) factor t).definitions ∧ y ∈ rs := by
  constructor
  · rintro ⟨ids, h, hy⟩; exact C39_only_undefined factor t defs ds run ids h y hy
  · rintro ⟨hu, x, rs, hm, hy⟩
    obtain ⟨ids, h1, z, hz, hzu, hzi⟩ := C39_never_silent factor t defs ds run x rs hm y hy hu
    have := single x rs hm y hy z hz hu hzu
    subst this
    exact ⟨ids, h1, hzi⟩

end

section
attribute [local instance] Sample.exactMag
open Sample

/-- `dimension Foo = A * B` with neither `A` nor `B` defined. -/
def twoUndefined : UnresolvedTemplates Int ℚ where
  quantityTypes := [str!"Q"]
  dimensionTypes := [str!"D"]
  dimensions := [⟨str!"Foo", .expression (.binary (.value (v (str!"A"))) .mul (v (str!"B")))⟩]
  units := []
  constants := []

/-- **C39 is false as stated in full:** the second undefined identifier of a definition is not reported. -/
theorem C39_second_not_reported : ∃ defs ds, runUnitSystem exactFactor twoUndefined = some (defs, ds) ∧
    str!"B" ∉ (UnresolvedTemplates.expand 1 exactFactor twoUndefined).names ∧
    (∃ x rs, (x, rs) ∈ (UnresolvedTemplates.expand 1 exactFactor twoUndefined).definitions ∧ str!"B" ∈ rs) ∧
    ds = [.undefined [str!"A"]] := by
  have h : (resolveDefsFuel (UnresolvedTemplates.expand 1 exactFactor twoUndefined)).map Prod.snd =
    some [.undefined [str!"A"]] := by decide +kernel
  unfold runUnitSystem
  rw [resolveDefs_eq_fuel]
  change ∃ defs ds, resolveDefsFuel (UnresolvedTemplates.expand 1 exactFactor twoUndefined) = some (defs, ds) ∧ _
  cases hr : resolveDefsFuel (UnresolvedTemplates.expand 1 exactFactor twoUndefined) with
  | none => rw [hr] at h; simp at h
  | some p =>
    rw [hr] at h; simp at h
    exact ⟨p.1, p.2, rfl, by decide, ⟨str!"Foo", [str!"A", str!"B"], by decide, by decide⟩, h⟩
end
end Diman
