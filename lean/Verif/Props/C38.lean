import Verif.Props.C09
/-!
# C38 Exactly one quantity type and one dimension type must be named
-/
set_option linter.unusedSectionVars false
namespace Diman
section
variable {E M : Type} [Exponent E] [MagOps E M]

/-- The report about missing or repeated `quantity_type` / `dimension_type` statements (`what` is the kind of type). -/
def Diag.isTypeReport (what : Str) : Diag → Bool
  | .typeNone w => w = what
  | .typeMultiple w _ => w = what
  | _ => false

theorem isTypeReport_tag {what : Str} {d : Diag} (h : d.isTypeReport what = true) : d.tag = 0 ∨ d.tag = 1 := by
  cases d <;> simp_all [Diag.isTypeReport, Diag.tag]

theorem getSingleIdent_report {l : List Str} {w dflt what : Str} :
    (∃ d ∈ (getSingleIdent l w dflt).2, d.isTypeReport what = true) ↔ l.length ≠ 1 ∧ w = what := by
  unfold getSingleIdent
  match l with
  | [] => simp [Diag.isTypeReport]
  | [x] => simp
  | x :: y :: l => simp [Diag.isTypeReport]

/-- **C38.** Whatever else the unit system contains: an error about the quantity type (dimension type) is reported if and only if
the number of `quantity_type` (`dimension_type`) statements is not one; if it is one, the given name is used; several names are all
listed and the first is used to continue. -/
theorem C38_single_type (factor : Prefix → M) (t : UnresolvedTemplates E M) (defs : Defs E M) (ds : List Diag)
    (run : runUnitSystem factor t = some (defs, ds)) :
    ((∃ d ∈ ds, d.isTypeReport (str!"quantity type") = true) ↔ t.quantityTypes.length ≠ 1) ∧
    ((∃ d ∈ ds, d.isTypeReport (str!"dimension type") = true) ↔ t.dimensionTypes.length ≠ 1) ∧
    (∀ q, t.quantityTypes = [q] → defs.quantityType = q) ∧ (∀ q, t.dimensionTypes = [q] → defs.dimensionType = q) ∧
    (∀ idents, Diag.typeMultiple (str!"quantity type") idents ∈ ds → idents = t.quantityTypes) ∧
    (∀ idents, Diag.typeMultiple (str!"dimension type") idents ∈ ds → idents = t.dimensionTypes) := by
  have run' : resolveDefs (UnresolvedTemplates.expand (MagOps.one E) factor t) = some (defs, ds) := run
  obtain ⟨res, d4, h1, _, _, _, _, hq, hd, hds⟩ := resolveDefs_diags run'
  have hq' : (UnresolvedTemplates.expand (MagOps.one E) factor t).quantityTypes = t.quantityTypes := rfl
  have hd' : (UnresolvedTemplates.expand (MagOps.one E) factor t).dimensionTypes = t.dimensionTypes := rfl
  rw [hq'] at hq; rw [hd'] at hd
  have key : ∀ x, x.tag = 0 ∨ x.tag = 1 → (x ∈ ds ↔
      x ∈ (getSingleIdent t.quantityTypes (str!"quantity type") (str!"Quantity")).2 ∨
      x ∈ (getSingleIdent t.dimensionTypes (str!"dimension type") (str!"Dimension")).2) := by
    intro x hx
    rw [hds]
    simp only [List.mem_append]
    constructor
    · rintro (((((h | h) | h) | h) | ((((h | h) | h) | h) | h)) | h)
      · exact .inl h
      · exact .inr h
      · have := tag_checkBaseUnits h; omega
      · have := tag_checkSymbols h; omega
      · have := tag_filterUndefined h; omega
      · have := tag_multiplyDefined h; omega
      · have := tag_checkKinds h; omega
      · have := tag_resolveLoop h1 h; omega
      · have := tag_checkAnnotations h; omega
      · have := tag_checkBaseSymbols h; omega
    · rintro (h | h)
      · exact .inl (.inl (.inl (.inl (.inl h))))
      · exact .inl (.inl (.inl (.inl (.inr h))))
  have rep : ∀ what, (∃ d ∈ ds, d.isTypeReport what = true) ↔
      (t.quantityTypes.length ≠ 1 ∧ str!"quantity type" = what) ∨ (t.dimensionTypes.length ≠ 1 ∧ str!"dimension type" = what) := by
    intro what
    rw [← getSingleIdent_report (l := t.quantityTypes) (dflt := str!"Quantity"),
      ← getSingleIdent_report (l := t.dimensionTypes) (dflt := str!"Dimension"), ← exists_or]
    refine exists_congr fun d => ?_
    rw [← or_and_right]
    exact and_congr_left fun hd => key d (isTypeReport_tag hd)
  have mult : ∀ (l : List Str) (w dflt w' : Str) (ids : List Str), Diag.typeMultiple w' ids ∈ (getSingleIdent l w dflt).2 →
      w = w' ∧ ids = l := by
    intro l w dflt w' ids h
    unfold getSingleIdent at h
    match l, h with
    | [], h => simp at h
    | [x], h => simp at h
    | x :: y :: l, h => simp at h; exact ⟨h.1.symm, h.2⟩
  refine ⟨?_, ?_, ?_, ?_, ?_, ?_⟩
  · rw [rep]
    have : ¬ (str!"dimension type" = str!"quantity type") := by decide
    simp [this]
  · rw [rep]
    have : ¬ (str!"quantity type" = str!"dimension type") := by decide
    simp [this]
  · intro q h; rw [hq, h]; rfl
  · intro q h; rw [hd, h]; rfl
  · intro ids h
    rcases (key _ (.inr rfl)).1 h with h | h
    · exact (mult _ _ _ _ _ h).2
    · exact absurd (mult _ _ _ _ _ h).1 (by decide)
  · intro ids h
    rcases (key _ (.inr rfl)).1 h with h | h
    · exact absurd (mult _ _ _ _ _ h).1 (by decide)
    · exact (mult _ _ _ _ _ h).2

end

-- A system with two quantity types and no dimension type.
section
attribute [local instance] Sample.exactMag
/-- Two quantity types, no dimension type, one base dimension and unit. -/
def twoTypes : UnresolvedTemplates Int ℚ where
  quantityTypes := [str!"A", str!"B"]
  dimensionTypes := []
  dimensions := [⟨str!"Length", .base ()⟩]
  units := [Sample.baseUnit (str!"meters") (str!"m") (str!"Length") []]
  constants := []
example : (resolveDefsFuel (UnresolvedTemplates.expand 1 Sample.exactFactor twoTypes)).map Prod.snd =
    some [.typeMultiple (str!"quantity type") [str!"A", str!"B"], .typeNone (str!"dimension type")] := by decide +kernel
example : ∃ p, runUnitSystem Sample.exactFactor Sample.sample = some p ∧ Sample.sample.quantityTypes = [str!"Quantity"] :=
  let ⟨defs, h⟩ := Sample.sample_accepted
  ⟨(defs, []), h, rfl⟩
end
end Diman
