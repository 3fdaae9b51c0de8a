import Verif.Props.C12
import Verif.Props.C13
/-!
# C14 Dimension annotations are enforced
The full statement (accepted if and only if the dimensions are equal) is false of the code: `BaseDimensions::eq` only looks at the
base dimensions listed on the annotation's side. Proved here: what the comparison does guarantee (`_partial`), exactly when it
reports, and two refutations of the full statement.
-/
set_option linter.unusedSectionVars false
set_option synthInstance.maxSize 100000
namespace Diman
open LawfulExponent

/-- `x` is introduced with annotation `a`, as a unit (or one of its prefixed/aliased variants) or as a constant. -/
def Unresolved.Annotated {E M : Type} (u : UnresolvedDefs E M) (x a : Str) : Prop :=
  (∃ v ∈ u.units, v.name = x ∧ v.annotation = some a) ∨ ∃ c ∈ u.constants, c.name = x ∧ c.annotation = some a

/-- The generated unit or constant `x` has dimension map `d`. -/
def Defs.HasDims {E M : Type} (D : Defs E M) (x : Str) (d : Dims E) : Prop :=
  (∃ U ∈ D.units, U.name = x ∧ U.dims = d) ∨ ∃ C ∈ D.constants, C.name = x ∧ C.dims = d

section
variable {E M : Type} [Exponent E] [MagOps E M]

theorem Dims.eq_iff {a b : Dims E} : a.eq b = true ↔ ∀ k v, (k, v) ∈ a → Dims.get b k = some v := by
  unfold Dims.eq
  rw [List.all_eq_true]
  constructor
  · intro h k v hm
    have := h _ hm
    simp only at this
    split at this
    · rename_i w hw; rw [hw]; simp only [decide_eq_true_eq] at this; rw [this]
    · simp at this
  · rintro h ⟨k, v⟩ hm
    simp [h k v hm]

theorem mem_checkAnnotations {res : BMap (ResolvedItem E M)} {x : Diag} :
    x ∈ checkAnnotations res ↔ ∃ k it a, (k, it) ∈ res ∧ it.item.annotation = some a ∧
      ((∃ ann, res.get a = some ann ∧ ann.item.kind ≠ .dimension ∧ x = .wrongTypeInAnnotation a ann.item.kind) ∨
       (∃ ann, res.get a = some ann ∧ ann.item.kind = .dimension ∧ ann.dimensions.dims.eq it.dimensions.dims = false ∧
          x = .violatedAnnotation it.item.ident a) ∨
       (res.get a = none ∧ x = .undefinedAnnotation a)) := by
  unfold checkAnnotations
  rw [List.mem_flatMap]
  constructor
  · rintro ⟨⟨k, it⟩, hm, hx⟩
    simp only at hx
    split at hx
    · simp at hx
    · rename_i a ha
      refine ⟨k, it, a, hm, ha, ?_⟩
      split at hx
      · rename_i ann hann
        split at hx
        · rename_i hk
          exact .inl ⟨ann, hann, hk, by simpa using hx⟩
        · rename_i hk
          split at hx
          · rename_i he
            exact .inr (.inl ⟨ann, hann, by simpa using hk, by simpa using he, by simpa using hx⟩)
          · simp at hx
      · rename_i hann
        exact .inr (.inr ⟨hann, by simpa using hx⟩)
  · rintro ⟨k, it, a, hm, ha, h⟩
    refine ⟨(k, it), hm, ?_⟩
    simp only [ha]
    rcases h with ⟨ann, h1, h2, rfl⟩ | ⟨ann, h1, h2, h3, rfl⟩ | ⟨h1, rfl⟩
    · simp [h1, h2]
    · simp [h1, h2, h3]
    · simp [h1]

end

section
variable {E M : Type} [Exponent E] [LawfulExponent E] [MagOps E M]

theorem Dims.get_mem' {d : Dims E} {k : Str} {v : E} (h : Dims.get d k = some v) : (k, v) ∈ d := by
  induction d with
  | nil => simp [Dims.get] at h
  | cons p d ih =>
    obtain ⟨k', v'⟩ := p
    unfold Dims.get at h
    split at h
    · rename_i hk; subst hk; injection h with h; subst h; simp
    · exact List.mem_cons_of_mem _ (ih h)

/-- What an accepted annotated unit or constant satisfies, on the resolved map. -/
theorem Accepted.annotated {u : UnresolvedDefs E M} {defs : Defs E M} {res : BMap (ResolvedItem E M)} (h : Accepted u defs res)
    {x a : Str} (hx : u.Annotated x a) :
    ∃ D ∈ defs.dimensions, D.name = a ∧ ∃ d, defs.HasDims x d ∧ D.dims.eq d = true := by
  have key : ∀ (i : Item E M) (dm : DM E M), res.get x = some ⟨i, dm⟩ → i.annotation = some a →
      ∃ D ∈ defs.dimensions, D.name = a ∧ D.dims.eq dm.dims = true := by
    intro i dm hg hi
    have hmem := (BMap.mem_iff_get h.solution.sorted).2 hg
    cases ha : res.get a with
    | none =>
      have : Diag.undefinedAnnotation a ∈ checkAnnotations res := mem_checkAnnotations.2 ⟨_, _, a, hmem, hi, .inr (.inr ⟨ha, rfl⟩)⟩
      rw [h.annotations] at this; simp at this
    | some ann =>
      by_cases hk : ann.item.kind = .dimension
      · have hann := h.solution.only a ann ha
        rcases mem_allItems.1 hann.1 with ⟨d, hd, he⟩ | ⟨w, hw, he⟩ | ⟨c, hc, he⟩
        · obtain ⟨dm', g', _, hD⟩ := h.dim_val hd
          have hname : d.name = a := by rw [← hann.2, he]; rfl
          rw [hname, ha] at g'
          injection g' with g'
          refine ⟨_, hD, hname, ?_⟩
          by_contra hne
          rw [Bool.not_eq_true] at hne
          have : Diag.violatedAnnotation i.ident a ∈ checkAnnotations res :=
            mem_checkAnnotations.2 ⟨_, _, a, hmem, hi, .inr (.inl ⟨ann, ha, hk, by rw [g']; exact hne, rfl⟩)⟩
          rw [h.annotations] at this; simp at this
        · rw [he] at hk
          cases hw' : w.definition <;> simp [Item.kind, Item.ofUnit, hw'] at hk
        · rw [he] at hk; simp [Item.kind, Item.ofConstant] at hk
      · have : Diag.wrongTypeInAnnotation a ann.item.kind ∈ checkAnnotations res :=
          mem_checkAnnotations.2 ⟨_, _, a, hmem, hi, .inl ⟨ann, ha, hk, rfl⟩⟩
        rw [h.annotations] at this; simp at this
  rcases hx with ⟨v, hv, rfl, hva⟩ | ⟨c, hc, rfl, hca⟩
  · obtain ⟨dm, g, _, hU⟩ := h.unit_val hv
    obtain ⟨D, hD, hDn, hDe⟩ := key _ _ g hva
    exact ⟨D, hD, hDn, _, .inl ⟨_, hU, rfl, rfl⟩, hDe⟩
  · obtain ⟨dm, g, _, hU⟩ := h.const_val hc
    obtain ⟨D, hD, hDn, hDe⟩ := key _ _ g hca
    exact ⟨D, hD, hDn, _, .inr ⟨_, hU, rfl, rfl⟩, hDe⟩

/-- **C14, what is enforced (partial).** In an accepted system every annotation names a dimension, and the annotated unit or
constant has the annotation's exponent in every base dimension whose exponent in the annotation is not zero; if moreover
the expression involves no base dimension besides those listed for the annotation, all exponents agree.
Missing for the full C14: base dimensions that do not occur in the annotation are not checked (`C14_not_enforced`). -/
theorem C14_annotation_partial (factor : Prefix → M) (t : UnresolvedTemplates E M) (defs : Defs E M)
    (accepted : runUnitSystem factor t = some (defs, [])) (x a : Str)
    (annotated : (UnresolvedTemplates.expand (MagOps.one E) factor t).Annotated x a) :
    ∃ D ∈ defs.dimensions, D.name = a ∧ ∃ d, defs.HasDims x d ∧
      (∀ k, D.dims.expo k ≠ 0 → d.expo k = D.dims.expo k) ∧
      ((∀ k, k ∈ d.map Prod.fst → k ∈ D.dims.map Prod.fst) → ∀ k, d.expo k = D.dims.expo k) := by
  obtain ⟨res, h⟩ := accepted_of_run accepted
  obtain ⟨D, hD, hn, d, hd, heq⟩ := h.annotated annotated
  rw [Dims.eq_iff] at heq
  have hsame : ∀ k v, Dims.get D.dims k = some v → d.expo k = D.dims.expo k := by
    intro k v hv
    unfold Dims.expo
    rw [heq k v (Dims.get_mem' hv), hv]
  refine ⟨D, hD, hn, d, hd, fun k hk => ?_, fun hsub k => ?_⟩
  · cases hv : Dims.get D.dims k with
    | none => simp [Dims.expo, hv] at hk
    | some v => exact hsame k v hv
  · cases hv : Dims.get D.dims k with
    | some v => exact hsame k v hv
    | none =>
      cases hw : Dims.get d k with
      | none => simp [Dims.expo, hv, hw]
      | some w =>
        exfalso
        have := hsub k (List.mem_map_of_mem (f := Prod.fst) (Dims.get_mem' hw))
        obtain ⟨⟨k', v⟩, hm, rfl⟩ := List.mem_map.1 this
        have hg : Dims.get D.dims k' ≠ none := by
          intro hn
          clear hsame heq hsub hD
          generalize D.dims = dd at hm hn
          induction dd with
          | nil => simp at hm
          | cons p dd ih =>
            unfold Dims.get at hn
            split at hn
            · simp at hn
            · rename_i hne
              rcases List.mem_cons.1 hm with rfl | hm
              · exact hne rfl
              · exact ih hm hn
        exact hg hv

end

section
variable {E M : Type} [Exponent E] [MagOps E M]

/-- The generated definitions are the entries of the resolved map. -/
theorem generated_dims {u : UnresolvedDefs E M} {defs : Defs E M} {ds : List Diag} (run : resolveDefs u = some (defs, ds)) :
    ∃ res d4, resolveLoop (survivors (allItems u)) [] = some (res, d4) ∧ res.Sorted ∧
      (∀ k r, res.get k = some r → r.item ∈ allItems u ∧ r.item.ident = k) ∧
      (∀ n d, (∃ D ∈ defs.dimensions, D.name = n ∧ D.dims = d) ↔
        ∃ r, res.get n = some r ∧ r.item.kind = .dimension ∧ r.dimensions.dims = d) ∧
      (∀ n d, defs.HasDims n d ↔ ∃ r, res.get n = some r ∧ r.item.kind ≠ .dimension ∧ r.dimensions.dims = d) := by
  obtain ⟨res, d4, hloop, h1, h2, h3, _⟩ := resolveDefs_diags run
  obtain ⟨done, l', hr, hend, hds⟩ := resolveLoop_run hloop
  have hsort := run_sorted hr BMap.sorted_nil
  have hsub : ∀ i ∈ done, i ∈ allItems u := fun i hi =>
    mem_survivors ((run_perm hr).1.mem_iff.2 (List.mem_append_left _ hi))
  have horig : ∀ k r, res.get k = some r → r.item ∈ allItems u ∧ r.item.ident = k := by
    intro k r hk
    rcases run_origin hr hk with h | ⟨h, h'⟩
    · simp [BMap.get] at h
    · exact ⟨hsub _ h, h'⟩
  refine ⟨res, d4, hloop, hsort, horig, ?_, ?_⟩
  · intro n d
    constructor
    · rintro ⟨D, hD, rfl, rfl⟩
      obtain ⟨kv, hkv, he⟩ := forall₂_mem_right (mapM_option_some h1) hD
      obtain ⟨hm, hk⟩ := List.mem_filter.1 hkv
      have hg := (BMap.mem_iff_get hsort).1 hm
      have hid := (horig _ _ hg).2
      refine ⟨kv.2, ?_, by simpa using hk, ?_⟩
      · split at he
        · rename_i dd hdd
          injection he with he
          rw [← he]
          rw [← hid] at hg
          simpa [Item.ident, hdd] using hg
        · simp at he
      · split at he
        · injection he with he; rw [← he]
        · simp at he
    · rintro ⟨r, hg, hk, rfl⟩
      have hm := (BMap.mem_iff_get hsort).2 hg
      have hid := (horig _ _ hg).2
      obtain ⟨D, hD, he⟩ := forall₂_mem_left (mapM_option_some h1) (a := (n, r)) (List.mem_filter.2 ⟨hm, by simpa using hk⟩)
      refine ⟨D, hD, ?_⟩
      split at he
      · rename_i dd hdd
        injection he with he
        rw [← he]
        exact ⟨by rw [← hid]; simp only at hdd; simp [Item.ident, hdd], rfl⟩
      · simp at he
  · intro n d
    constructor
    · rintro (⟨D, hD, rfl, rfl⟩ | ⟨D, hD, rfl, rfl⟩)
      · obtain ⟨kv, hkv, he⟩ := forall₂_mem_right (mapM_option_some h2) hD
        obtain ⟨hm, hk⟩ := List.mem_filter.1 hkv
        have hg := (BMap.mem_iff_get hsort).1 hm
        have hid := (horig _ _ hg).2
        refine ⟨kv.2, ?_, ?_, ?_⟩
        · split at he
          · rename_i dd hdd
            injection he with he
            rw [← he]
            rw [← hid] at hg
            simpa [Item.ident, hdd] using hg
          · simp at he
        · intro h; rw [h] at hk; simp at hk
        · split at he
          · injection he with he; rw [← he]
          · simp at he
      · obtain ⟨kv, hkv, he⟩ := forall₂_mem_right (mapM_option_some h3) hD
        obtain ⟨hm, hk⟩ := List.mem_filter.1 hkv
        have hg := (BMap.mem_iff_get hsort).1 hm
        have hid := (horig _ _ hg).2
        refine ⟨kv.2, ?_, ?_, ?_⟩
        · split at he
          · rename_i dd hdd
            injection he with he
            rw [← he]
            rw [← hid] at hg
            simpa [Item.ident, hdd] using hg
          · simp at he
        · intro h; rw [h] at hk; simp at hk
        · split at he
          · injection he with he; rw [← he]
          · simp at he
    · rintro ⟨r, hg, hk, rfl⟩
      have hm := (BMap.mem_iff_get hsort).2 hg
      have hid := (horig _ _ hg).2
      by_cases hc : r.item.kind = .constant
      · obtain ⟨D, hD, he⟩ := forall₂_mem_left (mapM_option_some h3) (a := (n, r)) (List.mem_filter.2 ⟨hm, by simpa using hc⟩)
        refine .inr ⟨D, hD, ?_⟩
        split at he
        · rename_i dd hdd
          injection he with he
          rw [← he]
          exact ⟨by rw [← hid]; simp only at hdd; simp [Item.ident, hdd], rfl⟩
        · simp at he
      · have hu : (decide (r.item.kind = .unit) || decide (r.item.kind = .baseUnit)) = true := by
          cases hkk : r.item.kind <;> simp_all
        obtain ⟨D, hD, he⟩ := forall₂_mem_left (mapM_option_some h2) (a := (n, r)) (List.mem_filter.2 ⟨hm, hu⟩)
        refine .inl ⟨D, hD, ?_⟩
        split at he
        · rename_i dd hdd
          injection he with he
          rw [← he]
          exact ⟨by rw [← hid]; simp only at hdd; simp [Item.ident, hdd], rfl⟩
        · simp at he

/-- **C14, the report (partial).** When names are distinct: a violation is reported for `x` with annotation `a` if and only if `x`
is annotated with the generated dimension `a` and some exponent listed in `a`'s dimension map differs from (or is absent in) that
of `x`. -/
theorem C14_violated_iff_partial (factor : Prefix → M) (t : UnresolvedTemplates E M) (defs : Defs E M) (ds : List Diag)
    (run : runUnitSystem factor t = some (defs, ds))
    (distinct : (UnresolvedTemplates.expand (MagOps.one E) factor t).names.Nodup) (x a : Str) :
    Diag.violatedAnnotation x a ∈ ds ↔
      (UnresolvedTemplates.expand (MagOps.one E) factor t).Annotated x a ∧
      ∃ D ∈ defs.dimensions, D.name = a ∧ ∃ d, defs.HasDims x d ∧ ∃ k e, (k, e) ∈ D.dims ∧ Dims.get d k ≠ some e := by
  obtain ⟨res, d4, hloop, hsort, horig, gdim, gunit⟩ := generated_dims run
  obtain ⟨res', d4', hloop', _, _, _, _, _, _, hann, _⟩ := diag_origin run
  rw [hloop] at hloop'
  injection hloop' with hloop'
  injection hloop' with e1 e2
  subst e1; subst e2
  have hn' : ((allItems (UnresolvedTemplates.expand (MagOps.one E) factor t)).map Item.ident).Nodup := by
    rwa [allItems_ident]
  have hneq : ∀ (D d : Dims E), D.eq d = false ↔ ∃ k e, (k, e) ∈ D ∧ Dims.get d k ≠ some e := by
    intro D d
    rw [← Bool.not_eq_true, Dims.eq_iff]
    push_neg
    rfl
  -- annotated names and items
  have gann : ∀ i ∈ allItems (UnresolvedTemplates.expand (MagOps.one E) factor t), ∀ a,
      i.annotation = some a ↔ (UnresolvedTemplates.expand (MagOps.one E) factor t).Annotated i.ident a := by
    intro i hi a
    constructor
    · intro ha
      rcases mem_allItems.1 hi with ⟨d, hd, rfl⟩ | ⟨w, hw, rfl⟩ | ⟨c, hc, rfl⟩
      · simp [Item.annotation, Item.ofDimension] at ha
      · exact .inl ⟨w, hw, rfl, ha⟩
      · exact .inr ⟨c, hc, rfl, ha⟩
    · rintro (⟨v, hv, he, ha⟩ | ⟨c, hc, he, ha⟩)
      · have := item_unique hn' (mem_allItems.2 (.inr (.inl ⟨v, hv, rfl⟩))) hi he
        subst this; exact ha
      · have := item_unique hn' (mem_allItems.2 (.inr (.inr ⟨c, hc, rfl⟩))) hi he
        subst this; exact ha
  rw [hann _ (.inr (.inl rfl)), mem_checkAnnotations]
  constructor
  · rintro ⟨k, it, b, hm, hb, ⟨_, _, _, he⟩ | ⟨ann, g1, g2, g3, he⟩ | ⟨_, he⟩⟩
    · simp at he
    · injection he with he1 he2
      subst he1; subst he2
      have hg := (BMap.mem_iff_get hsort).1 hm
      obtain ⟨hin, hid⟩ := horig _ _ hg
      have hA := (gann _ hin _).1 hb
      have hnd : it.item.kind ≠ .dimension := by
        intro hk
        rcases mem_allItems.1 hin with ⟨d, hd, e⟩ | ⟨w, hw, e⟩ | ⟨c, hc, e⟩
        · rw [e] at hb; simp [Item.annotation, Item.ofDimension] at hb
        · rw [e] at hk; cases hw' : w.definition <;> simp [Item.kind, Item.ofUnit, hw'] at hk
        · rw [e] at hk; simp [Item.kind, Item.ofConstant] at hk
      refine ⟨hA, ?_⟩
      obtain ⟨D, hD, hDn, hDd⟩ := (gdim a _).2 ⟨ann, g1, g2, rfl⟩
      refine ⟨D, hD, hDn, _, (gunit _ _).2 ⟨it, by rw [hid]; exact hg, hnd, rfl⟩, ?_⟩
      rw [← hneq, hDd]; exact g3
    · simp at he
  · rintro ⟨hA, D, hD, hDn, d, hd, hne⟩
    obtain ⟨r, hr, hk, hrd⟩ := (gunit _ _).1 hd
    obtain ⟨ann, g1, g2, g3⟩ := (gdim a D.dims).1 ⟨D, hD, hDn, rfl⟩
    obtain ⟨hin, hid⟩ := horig _ _ hr
    refine ⟨x, r, a, (BMap.mem_iff_get hsort).2 hr, ?_, .inr (.inl ⟨ann, g1, g2, ?_, by rw [hid]⟩)⟩
    · rw [gann _ hin, hid]; exact hA
    · rw [hneq, g3, hrd]; exact hne

/-- **C14, annotations that are not dimensions.** Annotating with a name that is defined nowhere, or that is a unit or a constant,
always yields an error. -/
theorem C14_not_a_dimension [LawfulExponent E] (factor : Prefix → M) (t : UnresolvedTemplates E M) (defs : Defs E M) (ds : List Diag)
    (run : runUnitSystem factor t = some (defs, ds)) (x a : Str)
    (annotated : (UnresolvedTemplates.expand (MagOps.one E) factor t).Annotated x a)
    (notDimension : a ∉ t.dimensions.map DimensionEntry.name) : ds ≠ [] := by
  rintro rfl
  obtain ⟨res, h⟩ := accepted_of_run run
  obtain ⟨D, hD, rfl, _⟩ := h.annotated annotated
  obtain ⟨d, hd, dm, g, rfl⟩ := h.dim_from hD
  exact notDimension (List.mem_map_of_mem (f := DimensionEntry.name) hd)

end

/-! ### The full statement is false -/
section
attribute [local instance] Sample.exactMag
open Sample

/-- `unit foo: Length = meters * seconds` -/
def wrongAnnotation : UnresolvedTemplates Int ℚ where
  quantityTypes := [str!"Q"]
  dimensionTypes := [str!"D"]
  dimensions := [⟨str!"Length", .base ()⟩, ⟨str!"Time", .base ()⟩]
  units := [baseUnit (str!"meters") (str!"m") (str!"Length") [], baseUnit (str!"seconds") (str!"s") (str!"Time") [],
    unit (str!"foo") (.binary (.value (v (str!"meters"))) .mul (v (str!"seconds"))) none [] (some (str!"Length"))]
  constants := []

/-- **C14, refuted.** A unit annotated `Length` but defined as `meters * seconds` is accepted, with time exponent one. -/
theorem C14_not_enforced : ∃ defs, runUnitSystem exactFactor wrongAnnotation = some (defs, []) ∧
    (UnresolvedTemplates.expand 1 exactFactor wrongAnnotation).Annotated (str!"foo") (str!"Length") ∧
    defs.dimExpo (str!"Length") (str!"time") = 0 ∧ defs.unitExpo (str!"foo") (str!"time") = 1 := by
  have h : (resolveDefsFuel (UnresolvedTemplates.expand 1 exactFactor wrongAnnotation)).map (fun p => (p.2,
      (p.1.dimensions.filter fun d => d.name = str!"Length").map (fun d => d.dims),
      (p.1.units.filter fun d => d.name = str!"foo").map (fun d => d.dims))) =
      some ([], [[(str!"length", 1)]], [[(str!"length", 1), (str!"time", 1)]]) := by decide +kernel
  unfold runUnitSystem
  rw [resolveDefs_eq_fuel]
  change ∃ defs, resolveDefsFuel (UnresolvedTemplates.expand 1 exactFactor wrongAnnotation) = some (defs, _) ∧ _
  cases hr : resolveDefsFuel (UnresolvedTemplates.expand 1 exactFactor wrongAnnotation) with
  | none => rw [hr] at h; simp at h
  | some p =>
    rw [hr] at h
    simp only [Option.map_some, Option.some.injEq, Prod.mk.injEq] at h
    obtain ⟨h0, h1, h2⟩ := h
    have find_of_filter : ∀ {α : Type} (q : α → Bool) (f : α → Dims Int) (l : List α) (d : Dims Int),
        (l.filter q).map f = [d] → (l.find? q).map f = some d := by
      intro α q f l d h
      rw [← List.head?_filter]
      cases hl : l.filter q with
      | nil => rw [hl] at h; simp at h
      | cons a as => rw [hl] at h; simp at h; simp [h]
    have f1 := find_of_filter _ _ _ _ h1
    have f2 := find_of_filter _ _ _ _ h2
    refine ⟨p.1, by rw [← h0], .inl ⟨⟨str!"foo", none, some (str!"Length"), .expression (.binary (.value (v (str!"meters"))) .mul
      (v (str!"seconds"))), none⟩, by simp [UnresolvedTemplates.expand, wrongAnnotation, UnitTemplate.expand, baseUnit, Sample.unit,
        UnitTemplate.expandOne, UnitTemplate.formatName, UnitTemplate.formatSymbol, UnitTemplate.getDefinition], rfl, rfl⟩, ?_, ?_⟩
    · unfold Defs.dimExpo
      cases hf : p.1.dimensions.find? (fun d => d.name = str!"Length") with
      | none => rfl
      | some D => rw [hf] at f1; simp at f1; simp only [f1]; decide +kernel
    · unfold Defs.unitExpo
      cases hf : p.1.units.find? (fun d => d.name = str!"foo") with
      | none => rw [hf] at f2; simp at f2
      | some D => rw [hf] at f2; simp at f2; simp only [f2]; decide +kernel

/-- `dimension One = Length / Length; unit foo: One = 1` -/
def falseAlarm : UnresolvedTemplates Int ℚ where
  quantityTypes := [str!"Q"]
  dimensionTypes := [str!"D"]
  dimensions := [⟨str!"Length", .base ()⟩, ⟨str!"One", .expression (.binary (.value (v (str!"Length"))) .div (v (str!"Length")))⟩]
  units := [baseUnit (str!"meters") (str!"m") (str!"Length") [], unit (str!"foo") (.value (c 1)) none [] (some (str!"One"))]
  constants := []

/-- **C14, refuted in the other direction.** A correct annotation is rejected: `One = Length / Length` is dimensionless, `foo = 1`
is dimensionless, but the annotation is reported as violated. -/
theorem C14_false_alarm : ∃ defs, runUnitSystem exactFactor falseAlarm =
      some (defs, [.violatedAnnotation (str!"foo") (str!"One")]) ∧
    ∀ k, defs.dimExpo (str!"One") k = defs.unitExpo (str!"foo") k := by
  have h : (resolveDefsFuel (UnresolvedTemplates.expand 1 exactFactor falseAlarm)).map (fun p => (p.2,
      (p.1.dimensions.filter fun d => d.name = str!"One").map (fun d => d.dims),
      (p.1.units.filter fun d => d.name = str!"foo").map (fun d => d.dims))) =
      some ([.violatedAnnotation (str!"foo") (str!"One")], [[(str!"length", 0)]], [[]]) := by decide +kernel
  unfold runUnitSystem
  rw [resolveDefs_eq_fuel]
  change ∃ defs, resolveDefsFuel (UnresolvedTemplates.expand 1 exactFactor falseAlarm) = some (defs, _) ∧ _
  cases hr : resolveDefsFuel (UnresolvedTemplates.expand 1 exactFactor falseAlarm) with
  | none => rw [hr] at h; simp at h
  | some p =>
    rw [hr] at h
    simp only [Option.map_some, Option.some.injEq, Prod.mk.injEq] at h
    obtain ⟨h0, h1, h2⟩ := h
    have find_of_filter : ∀ {α : Type} (q : α → Bool) (f : α → Dims Int) (l : List α) (d : Dims Int),
        (l.filter q).map f = [d] → (l.find? q).map f = some d := by
      intro α q f l d h
      rw [← List.head?_filter]
      cases hl : l.filter q with
      | nil => rw [hl] at h; simp at h
      | cons a as => rw [hl] at h; simp at h; simp [h]
    have f1 := find_of_filter _ _ _ _ h1
    have f2 := find_of_filter _ _ _ _ h2
    refine ⟨p.1, by rw [← h0], fun k => ?_⟩
    unfold Defs.dimExpo Defs.unitExpo
    cases hf : p.1.dimensions.find? (fun d => d.name = str!"One") with
    | none => rw [hf] at f1; simp at f1
    | some D =>
      rw [hf] at f1; simp at f1
      cases hg : p.1.units.find? (fun d => d.name = str!"foo") with
      | none => rw [hg] at f2; simp at f2
      | some U =>
        rw [hg] at f2; simp at f2
        simp only [f1, f2, Dims.expo, Dims.get]
        by_cases hk : str!"length" = k
        · subst hk; simp [LawfulExponent.val]
        · simp [hk]

example : (UnresolvedTemplates.expand 1 exactFactor wrongAnnotation).names.Nodup := by decide
example : (UnresolvedTemplates.expand 1 exactFactor falseAlarm).names.Nodup := by decide
end
end Diman
