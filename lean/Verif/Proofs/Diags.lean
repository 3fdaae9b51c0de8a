import Verif.Proofs.Expand
/-! Which check emits which diagnostic. -/
set_option linter.unusedSectionVars false
namespace Diman
variable {E M : Type} [Exponent E] [MagOps E M]

/-- A number for each kind of diagnostic. -/
def Diag.tag : Diag → Nat
  | .typeNone _ => 0 | .typeMultiple _ _ => 1 | .multipleBaseUnits _ _ => 2 | .baseUnitForNonBase _ _ => 3
  | .symbolMultiple _ _ => 4 | .undefined _ => 5 | .multipleDefinitions _ => 6 | .kindNotAllowed _ _ _ _ => 7
  | .unresolvable _ => 8 | .wrongTypeInAnnotation _ _ => 9 | .violatedAnnotation _ _ => 10 | .undefinedAnnotation _ => 11
  | .noSymbolForBaseUnit _ => 12

theorem tag_getSingleIdent {l : List Str} {n d : Str} {x : Diag} (h : x ∈ (getSingleIdent l n d).2) : x.tag = 0 ∨ x.tag = 1 := by
  unfold getSingleIdent at h
  match l, h with
  | [], h => simp at h; subst h; exact .inl rfl
  | [_], h => simp at h
  | _ :: _ :: _, h => simp at h; subst h; exact .inr rfl

theorem tag_checkBaseUnits {bd : List Str} {us : List (UnitEntry E M)} {c : Str → Nat} {x : Diag}
    (h : x ∈ checkBaseUnits bd c us) : x.tag = 2 ∨ x.tag = 3 := by
  induction us generalizing c with
  | nil => simp [checkBaseUnits] at h
  | cons u us ih =>
    unfold checkBaseUnits at h
    split at h
    · exact ih h
    · split at h
      · split at h
        · rcases List.mem_append.1 h with h | h
          · split at h
            · simp at h; subst h; exact .inl rfl
            · simp at h
          · exact ih h
        · rcases List.mem_cons.1 h with h | h
          · subst h; exact .inr rfl
          · exact ih h
      · exact ih h

theorem tag_checkSymbols {us : List (UnitEntry E M)} {x : Diag} (h : x ∈ checkSymbols us) : x.tag = 4 := by
  unfold checkSymbols at h
  simp only [List.mem_map] at h
  obtain ⟨s, _, rfl⟩ := h; rfl

theorem tag_filterUndefined {l : List (Item E M)} {x : Diag} (h : x ∈ (filterUndefined l).2) : x.tag = 5 := by
  unfold filterUndefined at h
  simp only at h
  split at h
  · simp at h
  · simp at h; subst h; rfl

theorem tag_multiplyDefined {l : List (Item E M)} {x : Diag} (h : x ∈ multiplyDefined l) : x.tag = 6 := by
  unfold multiplyDefined at h
  simp only at h
  split at h
  · simp at h
  · simp at h; subst h; rfl

theorem tag_checkKinds {l : List (Item E M)} {x : Diag} (h : x ∈ checkKinds l) : x.tag = 7 := by
  unfold checkKinds at h
  simp only [List.mem_flatMap, List.mem_filterMap] at h
  obtain ⟨i, _, y, _, hy⟩ := h
  split at hy
  · split at hy
    · simp at hy
    · injection hy with hy; subst hy; rfl
  · simp at hy

theorem tag_resolveLoop {l : List (Item E M)} {res res' : BMap (ResolvedItem E M)} {ds : List Diag}
    (h : resolveLoop l res = some (res', ds)) {x : Diag} (hx : x ∈ ds) : x.tag = 8 := by
  obtain ⟨done, l', _, _, rfl⟩ := resolveLoop_run h
  split at hx
  · simp at hx
  · simp at hx; subst hx; rfl

theorem tag_checkAnnotations {res : BMap (ResolvedItem E M)} {x : Diag} (h : x ∈ checkAnnotations res) :
    x.tag = 9 ∨ x.tag = 10 ∨ x.tag = 11 := by
  unfold checkAnnotations at h
  simp only [List.mem_flatMap] at h
  obtain ⟨r, _, h⟩ := h
  split at h
  · simp at h
  · split at h
    · split at h
      · simp at h; subst h; exact .inl rfl
      · split at h
        · simp at h; subst h; exact .inr (.inl rfl)
        · simp at h
    · simp at h; subst h; exact .inr (.inr rfl)

theorem tag_checkBaseSymbols {us : List (UnitDef E M)} {x : Diag} (h : x ∈ checkBaseSymbols us) : x.tag = 12 := by
  unfold checkBaseSymbols at h
  simp only [List.mem_filterMap] at h
  obtain ⟨u, _, h⟩ := h
  split at h
  · injection h with h; subst h; rfl
  · simp at h

/-- The list of items that reaches the resolution loop. -/
def survivors (l : List (Item E M)) : List (Item E M) :=
  filterAutogenerated (filterAutogenerated (filterAutogenerated (filterUndefined l).1))

/-- All diagnostics of a run, by origin. -/
theorem resolveDefs_diags {u : UnresolvedDefs E M} {defs : Defs E M} {ds : List Diag} (h : resolveDefs u = some (defs, ds)) :
    ∃ res d4, resolveLoop (survivors (allItems u)) [] = some (res, d4) ∧ getDimensions res = some defs.dimensions ∧
      getUnits res = some defs.units ∧ getConstants res = some defs.constants ∧
      defs.baseDimensions = baseDimensions u.dimensions ∧
      defs.quantityType = (getSingleIdent u.quantityTypes (str!"quantity type") (str!"Quantity")).1 ∧
      defs.dimensionType = (getSingleIdent u.dimensionTypes (str!"dimension type") (str!"Dimension")).1 ∧
      ds = (getSingleIdent u.quantityTypes (str!"quantity type") (str!"Quantity")).2 ++
        (getSingleIdent u.dimensionTypes (str!"dimension type") (str!"Dimension")).2 ++
        checkBaseUnits ((u.dimensions.filter DimensionEntry.isBase).map DimensionEntry.name) (fun _ => 0) u.units ++
        checkSymbols u.units ++
        ((filterUndefined (allItems u)).2 ++ multiplyDefined (filterAutogenerated (filterUndefined (allItems u)).1) ++
          checkKinds (filterAutogenerated (filterAutogenerated (filterUndefined (allItems u)).1)) ++ d4 ++
          checkAnnotations res) ++ checkBaseSymbols defs.units := by
  unfold resolveDefs at h
  simp only [bindM_eq_some, pure_eq_some, Prod.exists] at h
  obtain ⟨res, e5, h1, dims, h2, units, h3, consts, h4, h⟩ := h
  injection h with hd he
  subst hd
  unfold resolveItems at h1
  simp only [bindM_eq_some, pure_eq_some, Prod.exists] at h1
  obtain ⟨res', d4, h5, h6⟩ := h1
  injection h6 with h6 h7
  subst h6; subst h7
  exact ⟨res', d4, h5, h2, h3, h4, rfl, rfl, rfl, he.symm⟩

/-- A diagnostic of tag `n` in a run comes from the check emitting that tag. -/
theorem diag_origin {u : UnresolvedDefs E M} {defs : Defs E M} {ds : List Diag} (h : resolveDefs u = some (defs, ds)) :
    ∃ res d4, resolveLoop (survivors (allItems u)) [] = some (res, d4) ∧ getUnits res = some defs.units ∧
      (∀ x, x.tag = 4 → (x ∈ ds ↔ x ∈ checkSymbols u.units)) ∧
      (∀ x, x.tag = 5 → (x ∈ ds ↔ x ∈ (filterUndefined (allItems u)).2)) ∧
      (∀ x, x.tag = 6 → (x ∈ ds ↔ x ∈ multiplyDefined (filterAutogenerated (filterUndefined (allItems u)).1))) ∧
      (∀ x, x.tag = 7 → (x ∈ ds ↔ x ∈ checkKinds (filterAutogenerated (filterAutogenerated (filterUndefined (allItems u)).1)))) ∧
      (∀ x, x.tag = 8 → (x ∈ ds ↔ x ∈ d4)) ∧
      (∀ x, x.tag = 9 ∨ x.tag = 10 ∨ x.tag = 11 → (x ∈ ds ↔ x ∈ checkAnnotations res)) ∧
      (∀ x, x.tag = 2 ∨ x.tag = 3 → (x ∈ ds ↔ x ∈ checkBaseUnits ((u.dimensions.filter DimensionEntry.isBase).map
        DimensionEntry.name) (fun _ => 0) u.units)) ∧
      (∀ x, x.tag = 12 → (x ∈ ds ↔ x ∈ checkBaseSymbols defs.units)) := by
  obtain ⟨res, d4, h1, _, hu, _, _, _, _, hds⟩ := resolveDefs_diags h
  have key : ∀ x, x ∈ ds ↔
      (x ∈ (getSingleIdent u.quantityTypes (str!"quantity type") (str!"Quantity")).2 ∨
        x ∈ (getSingleIdent u.dimensionTypes (str!"dimension type") (str!"Dimension")).2) ∨
      x ∈ checkBaseUnits ((u.dimensions.filter DimensionEntry.isBase).map DimensionEntry.name) (fun _ => 0) u.units ∨
      x ∈ checkSymbols u.units ∨ x ∈ (filterUndefined (allItems u)).2 ∨
      x ∈ multiplyDefined (filterAutogenerated (filterUndefined (allItems u)).1) ∨
      x ∈ checkKinds (filterAutogenerated (filterAutogenerated (filterUndefined (allItems u)).1)) ∨ x ∈ d4 ∨
      x ∈ checkAnnotations res ∨ x ∈ checkBaseSymbols defs.units := by
    intro x; rw [hds]; simp only [List.mem_append, or_assoc]
  have t0 : ∀ x, (x ∈ (getSingleIdent u.quantityTypes (str!"quantity type") (str!"Quantity")).2 ∨
        x ∈ (getSingleIdent u.dimensionTypes (str!"dimension type") (str!"Dimension")).2) → x.tag = 0 ∨ x.tag = 1 :=
    fun x hx => hx.elim tag_getSingleIdent tag_getSingleIdent
  have t1 := fun x => @tag_checkBaseUnits E M _ _ ((u.dimensions.filter DimensionEntry.isBase).map DimensionEntry.name) u.units
    (fun _ => 0) x
  have t2 := fun x => @tag_checkSymbols E M _ _ u.units x
  have t3 := fun x => @tag_filterUndefined E M _ _ (allItems u) x
  have t4 := fun x => @tag_multiplyDefined E M _ _ (filterAutogenerated (filterUndefined (allItems u)).1) x
  have t5 := fun x => @tag_checkKinds E M _ _ (filterAutogenerated (filterAutogenerated (filterUndefined (allItems u)).1)) x
  have t6 := fun x => @tag_resolveLoop E M _ _ _ _ _ _ h1 x
  have t7 := fun x => @tag_checkAnnotations E M _ _ res x
  have t8 := fun x => @tag_checkBaseSymbols E M _ _ defs.units x
  refine ⟨res, d4, h1, hu, ?_, ?_, ?_, ?_, ?_, ?_, ?_, ?_⟩ <;>
    (intro x hx
     rw [key x]
     have a0 := t0 x; have a1 := t1 x; have a2 := t2 x; have a3 := t3 x; have a4 := t4 x
     have a5 := t5 x; have a6 := t6 x; have a7 := t7 x; have a8 := t8 x
     clear key t0 t1 t2 t3 t4 t5 t6 t7 t8 hds h1 hu h
     generalize (x ∈ (getSingleIdent u.quantityTypes (str!"quantity type") (str!"Quantity")).2 ∨
        x ∈ (getSingleIdent u.dimensionTypes (str!"dimension type") (str!"Dimension")).2) = p0 at *
     generalize (x ∈ checkBaseUnits ((u.dimensions.filter DimensionEntry.isBase).map DimensionEntry.name) (fun _ => 0) u.units) = p1 at *
     generalize (x ∈ checkSymbols u.units) = p2 at *
     generalize (x ∈ (filterUndefined (allItems u)).2) = p3 at *
     generalize (x ∈ multiplyDefined (filterAutogenerated (filterUndefined (allItems u)).1)) = p4 at *
     generalize (x ∈ checkKinds (filterAutogenerated (filterAutogenerated (filterUndefined (allItems u)).1))) = p5 at *
     generalize (x ∈ d4) = p6 at *
     generalize (x ∈ checkAnnotations res) = p7 at *
     generalize (x ∈ checkBaseSymbols defs.units) = p8 at *
     generalize x.tag = n at *
     constructor
     · rintro (h | h | h | h | h | h | h | h | h)
       · have := a0 h; first | exact h | omega
       · have := a1 h; first | exact h | omega
       · have := a2 h; first | exact h | omega
       · have := a3 h; first | exact h | omega
       · have := a4 h; first | exact h | omega
       · have := a5 h; first | exact h | omega
       · have := a6 h; first | exact h | omega
       · have := a7 h; first | exact h | omega
       · have := a8 h; first | exact h | omega
     · intro h; simp only [h, true_or, or_true])

end Diman
