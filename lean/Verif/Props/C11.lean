import Verif.Props.C09
/-!
# C11 Duplicate names and duplicate symbols are always reported, and only those
-/
set_option linter.unusedSectionVars false
namespace Diman
section
variable {E M : Type} [Exponent E] [MagOps E M]

theorem mem_multiplyDefined {l : List (Item E M)} {x : Str} :
    (∃ gs, Diag.multipleDefinitions gs ∈ multiplyDefined l ∧ ∃ g ∈ gs, x ∈ g) ↔ 1 < (l.map Item.ident).count x := by
  unfold multiplyDefined
  simp only
  constructor
  · rintro ⟨gs, h1, g, hg, hx⟩
    split at h1
    · simp at h1
    · simp only [List.mem_singleton, Diag.multipleDefinitions.injEq] at h1
      subst h1
      obtain ⟨y, hy, rfl⟩ := List.mem_map.1 hg
      have := (List.mem_filter.1 hx).2
      have hxy : x = y := by simpa using this
      subst hxy
      simpa using (List.mem_filter.1 hy).2
  · intro h
    have hx : x ∈ l.map Item.ident := List.count_pos_iff.1 (by omega)
    have hm : x ∈ (dedup (l.map Item.ident)).filter fun x => decide (1 < (l.map Item.ident).count x) :=
      List.mem_filter.2 ⟨mem_dedup.2 hx, by simpa using h⟩
    refine ⟨_, ?_, _, List.mem_map_of_mem (f := fun x => (l.map Item.ident).filter (· = x)) hm, List.mem_filter.2 ⟨hx, decide_eq_true rfl⟩⟩
    rw [if_neg]
    · exact List.mem_singleton.2 rfl
    · intro he
      rw [List.isEmpty_iff, List.map_eq_nil_iff] at he
      rw [he] at hm; simp at hm

/-- **C11, names: always an error.** A unit system in which some name is introduced more than once (by a statement, a prefix or
an alias) is never accepted. -/
theorem C11_duplicate_is_error (factor : Prefix → M) (t : UnresolvedTemplates E M) (defs : Defs E M) (ds : List Diag)
    (run : runUnitSystem factor t = some (defs, ds))
    (dup : ∃ x, 1 < (UnresolvedTemplates.expand (MagOps.one E) factor t).names.count x) : ds ≠ [] := by
  rintro rfl
  obtain ⟨res, h⟩ := accepted_of_run run
  obtain ⟨x, hx⟩ := dup
  have := List.nodup_iff_count_le_one.1 h.nodup x
  omega

/-- **C11, names: exactly the duplicates.** If every mentioned name is defined somewhere, the names reported as defined multiple
times are exactly those introduced more than once. -/
theorem C11_reported_iff (factor : Prefix → M) (t : UnresolvedTemplates E M) (defs : Defs E M) (ds : List Diag)
    (run : runUnitSystem factor t = some (defs, ds))
    (defined : ∀ x rs, (x, rs) ∈ (UnresolvedTemplates.expand (MagOps.one E) factor t).definitions →
      ∀ y ∈ rs, y ∈ (UnresolvedTemplates.expand (MagOps.one E) factor t).names) (x : Str) :
    (∃ gs, Diag.multipleDefinitions gs ∈ ds ∧ ∃ g ∈ gs, x ∈ g) ↔
      1 < (UnresolvedTemplates.expand (MagOps.one E) factor t).names.count x := by
  obtain ⟨res, d4, _, _, _, _, hm, _⟩ := diag_origin run
  have hu : (filterUndefined (allItems (UnresolvedTemplates.expand (MagOps.one E) factor t))).2 = [] := by
    rw [filterUndefined_nil, allItems_ident]
    intro i hi y hy
    refine defined i.ident i.refs ?_ y hy
    rw [← itemDefs_allItems]
    exact mem_itemDefs.2 ⟨i, hi, rfl, rfl⟩
  rw [filterUndefined_eq hu, filterAutogenerated_eq (allItems_autoOk (expand_autoOk _ _ t))] at hm
  rw [← allItems_ident, ← mem_multiplyDefined]
  refine exists_congr fun gs => and_congr_left fun _ => hm _ rfl

/-- **C11, names: no false report.** A name that is introduced at most once is never reported as defined multiple times, in any
unit system. -/
theorem C11_no_false_report (factor : Prefix → M) (t : UnresolvedTemplates E M) (defs : Defs E M) (ds : List Diag)
    (run : runUnitSystem factor t = some (defs, ds)) (gs : List (List Str)) (report : Diag.multipleDefinitions gs ∈ ds) :
    ∀ g ∈ gs, ∀ x ∈ g, 1 < (UnresolvedTemplates.expand (MagOps.one E) factor t).names.count x := by
  intro g hg x hx
  obtain ⟨res, d4, _, _, _, _, hm, _⟩ := diag_origin run
  rw [hm _ rfl] at report
  have := mem_multiplyDefined.1 ⟨gs, report, g, hg, hx⟩
  refine lt_of_lt_of_le this ?_
  rw [← allItems_ident]
  refine List.Sublist.count_le _ (List.Sublist.map _ ?_)
  unfold filterAutogenerated filterUndefined
  exact List.filter_sublist.trans List.filter_sublist

/-- **C11, symbols.** A symbol is reported as used by several units if and only if it is attached to more than one unit, and the
units listed are exactly those carrying it. -/
theorem C11_symbol_iff (factor : Prefix → M) (t : UnresolvedTemplates E M) (defs : Defs E M) (ds : List Diag)
    (run : runUnitSystem factor t = some (defs, ds)) (s : Str) (units : List Str) :
    Diag.symbolMultiple s units ∈ ds ↔
      1 < ((UnresolvedTemplates.expand (MagOps.one E) factor t).units.filter fun x => x.symbol = some s).length ∧
      units = ((UnresolvedTemplates.expand (MagOps.one E) factor t).units.filter fun x => x.symbol = some s).map UnitEntry.name := by
  obtain ⟨res, d4, _, _, hm, _⟩ := diag_origin run
  rw [hm _ rfl]
  generalize (UnresolvedTemplates.expand (MagOps.one E) factor t).units = us
  have hcount : (us.filterMap UnitEntry.symbol).count s = (us.filter fun x => x.symbol = some s).length := by
    induction us with
    | nil => rfl
    | cons a us ih =>
      cases ha : a.symbol with
      | none => simp [ha, ih]
      | some b =>
        by_cases hb : b = s
        · subst hb; simp [ha, ih]
        · have : ¬ (b == s) = true := by simpa using hb
          simp [ha, ih, hb]
  unfold checkSymbols
  simp only [List.mem_map, List.mem_filter, decide_eq_true_eq, Diag.symbolMultiple.injEq]
  rw [← hcount]
  constructor
  · rintro ⟨s', ⟨_, h⟩, rfl, rfl⟩
    exact ⟨h, rfl⟩
  · rintro ⟨h, rfl⟩
    exact ⟨s, ⟨mem_dedup.2 (List.count_pos_iff.1 (by omega)), h⟩, rfl, rfl⟩

end

/-! ### The hypotheses are met -/
section
attribute [local instance] Sample.exactMag
open Sample

/-- The alias of `inches` and the prefixed `meters` collide with other units, by name and by symbol. -/
def colliding : UnresolvedTemplates Int ℚ where
  quantityTypes := [str!"Q"]
  dimensionTypes := [str!"D"]
  dimensions := [⟨str!"Length", .base ()⟩]
  units := [baseUnit (str!"meters") (str!"m") (str!"Length") [.kilo],
    unit (str!"kilometers") (.value (v (str!"meters"))) (some (str!"km")),
    unit (str!"inches") (.value (v (str!"meters"))) none [str!"zoll"],
    unit (str!"zoll") (.value (v (str!"meters")))]
  constants := []

theorem colliding_run : ∃ defs, runUnitSystem exactFactor colliding =
    some (defs, [.symbolMultiple (str!"km") [str!"kilometers", str!"kilometers"],
      .multipleDefinitions [[str!"kilometers", str!"kilometers"], [str!"zoll", str!"zoll"]]]) := by
  have h : (resolveDefsFuel (UnresolvedTemplates.expand 1 exactFactor colliding)).map Prod.snd =
    some [.symbolMultiple (str!"km") [str!"kilometers", str!"kilometers"],
      .multipleDefinitions [[str!"kilometers", str!"kilometers"], [str!"zoll", str!"zoll"]]] := by decide +kernel
  unfold runUnitSystem
  rw [resolveDefs_eq_fuel]
  change ∃ defs, resolveDefsFuel (UnresolvedTemplates.expand 1 exactFactor colliding) = some (defs, _)
  cases hr : resolveDefsFuel (UnresolvedTemplates.expand 1 exactFactor colliding) with
  | none => rw [hr] at h; simp at h
  | some p => rw [hr] at h; simp at h; exact ⟨p.1, by rw [← h]⟩

example : ∀ p ∈ (UnresolvedTemplates.expand 1 exactFactor colliding).definitions,
      ∀ y ∈ p.2, y ∈ (UnresolvedTemplates.expand 1 exactFactor colliding).names := by decide
end
end Diman
