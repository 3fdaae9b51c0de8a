import Verif.Spec.Complaint
import Verif.Props.C48
/-!
# C48 — the list of errors, exactly
-/
set_option linter.unusedSectionVars false
namespace Diman

section
variable {E M : Type} [Exponent E] [MagOps E M]

/-! ### Base units -/

/-- The base unit statements of a list of units, as (name, dimension). -/
def basePairs (us : List (UnitEntry E M)) : List (Str × Str) :=
  us.filterMap fun u => if u.autogeneratedFrom.isSome then none else match u.definition with | .base d => some (u.name, d) | .expression _ => none

theorem mem_multipleBaseUnits {bd : List Str} {us : List (UnitEntry E M)} {c : Str → Nat} {d n : Str} :
    Diag.multipleBaseUnits d n ∈ checkBaseUnits bd c us ↔
      d ∈ bd ∧ ∃ bef aft, basePairs us = bef ++ (n, d) :: aft ∧ 0 < c d + (bef.map Prod.snd).count d := by
  induction us generalizing c with
  | nil => simp [checkBaseUnits, basePairs]
  | cons u us ih =>
    unfold checkBaseUnits basePairs
    rw [List.filterMap_cons]
    by_cases ha : u.autogeneratedFrom.isSome = true
    · simp only [ha, if_true]; exact ih
    · simp only [ha, if_false, Bool.false_eq_true]
      cases hd : u.definition with
      | expression e => simp only; exact ih
      | base d' =>
        simp only
        change _ ↔ d ∈ bd ∧ ∃ bef aft, (u.name, d') :: basePairs us = bef ++ (n, d) :: aft ∧ _
        have split : ∀ P : List (Str × Str) → Prop, (∃ bef aft, (u.name, d') :: basePairs us = bef ++ (n, d) :: aft ∧ P bef) ↔
            ((u.name = n ∧ d' = d) ∧ P []) ∨ ∃ bef aft, basePairs us = bef ++ (n, d) :: aft ∧ P ((u.name, d') :: bef) := by
          intro P
          constructor
          · rintro ⟨bef, aft, h, hp⟩
            cases bef with
            | nil =>
              simp only [List.nil_append, List.cons.injEq, Prod.mk.injEq] at h
              exact .inl ⟨h.1, hp⟩
            | cons p bef =>
              simp only [List.cons_append, List.cons.injEq] at h
              exact .inr ⟨bef, aft, h.2, by rw [h.1]; exact hp⟩
          · rintro (⟨⟨rfl, rfl⟩, hp⟩ | ⟨bef, aft, h, hp⟩)
            · exact ⟨[], _, rfl, hp⟩
            · exact ⟨_ :: bef, aft, by rw [h]; rfl, hp⟩
        rw [split]
        split
        · rename_i hc
          rw [List.mem_append, ih]
          simp only [List.map_nil, List.count_nil, List.map_cons, List.count_cons, Nat.add_zero]
          constructor
          · rintro (h | ⟨hb, bef, aft, h, hp⟩)
            · split at h
              · simp only [List.mem_singleton, Diag.multipleBaseUnits.injEq] at h
                obtain ⟨rfl, rfl⟩ := h
                exact ⟨by simpa using hc, .inl ⟨⟨rfl, rfl⟩, by omega⟩⟩
              · simp at h
            · refine ⟨hb, .inr ⟨bef, aft, h, ?_⟩⟩
              simp only [beq_iff_eq]
              by_cases e : d' = d
              · simp [e]
              · simp only [e, if_false]
                have e' : ¬ d = d' := fun h => e h.symm
                simpa only [e', if_false, Nat.add_zero] using hp
          · rintro ⟨hb, ⟨⟨rfl, rfl⟩, h⟩ | ⟨bef, aft, h, hp⟩⟩
            · left; rw [if_pos (by omega)]; simp
            · right
              refine ⟨hb, bef, aft, h, ?_⟩
              simp only [beq_iff_eq] at hp
              by_cases e : d' = d
              · simp [e]
              · have e' : ¬ d = d' := fun h => e h.symm
                simpa [e, e'] using hp
        · rename_i hc
          rw [List.mem_cons, ih]
          simp only [reduceCtorEq, false_or]
          have hne : d ∈ bd → d' ≠ d := by rintro h rfl; simp at hc; exact hc h
          simp only [List.map_cons, List.count_cons, beq_iff_eq]
          constructor
          · rintro ⟨hb, bef, aft, h, hp⟩
            exact ⟨hb, .inr ⟨bef, aft, h, by rw [if_neg (hne hb)]; exact hp⟩⟩
          · rintro ⟨hb, ⟨⟨_, e⟩, _⟩ | ⟨bef, aft, h, hp⟩⟩
            · exact absurd e (hne hb)
            · exact ⟨hb, bef, aft, h, by rw [if_neg (hne hb)] at hp; exact hp⟩

theorem mem_baseUnitForNonBase {bd : List Str} {us : List (UnitEntry E M)} {c : Str → Nat} {d n : Str} :
    Diag.baseUnitForNonBase d n ∈ checkBaseUnits bd c us ↔ d ∉ bd ∧ (n, d) ∈ basePairs us := by
  induction us generalizing c with
  | nil => simp [checkBaseUnits, basePairs]
  | cons u us ih =>
    unfold checkBaseUnits basePairs
    rw [List.filterMap_cons]
    by_cases ha : u.autogeneratedFrom.isSome = true
    · simp only [ha, if_true]; exact ih
    · simp only [ha, if_false, Bool.false_eq_true]
      cases hd : u.definition with
      | expression e => simp only; exact ih
      | base d' =>
        simp only
        change _ ↔ d ∉ bd ∧ (n, d) ∈ (u.name, d') :: basePairs us
        rw [List.mem_cons]
        split
        · rename_i hc
          rw [List.mem_append, ih]
          simp only [List.contains_iff_mem] at hc
          constructor
          · rintro (h | ⟨h1, h2⟩)
            · split at h <;> simp at h
            · exact ⟨h1, .inr h2⟩
          · rintro ⟨h1, h2 | h2⟩
            · injection h2 with _ h2; subst h2; exact absurd hc h1
            · exact .inr ⟨h1, h2⟩
        · rename_i hc
          simp only [List.contains_iff_mem] at hc
          rw [List.mem_cons, ih]
          constructor
          · rintro (h | ⟨h1, h2⟩)
            · injection h with h h'; subst h; subst h'; exact ⟨hc, .inl rfl⟩
            · exact ⟨h1, .inr h2⟩
          · rintro ⟨h1, h2 | h2⟩
            · injection h2 with h h'; subst h; subst h'; exact .inl rfl
            · exact .inr ⟨h1, h2⟩

theorem basePairs_append (a b : List (UnitEntry E M)) : basePairs (a ++ b) = basePairs a ++ basePairs b := List.filterMap_append

theorem basePairs_expand (one : M) (factor : Prefix → M) (v : UnitTemplate E M) : basePairs (v.expand one factor) =
    (match v.definition with | .base d => [(v.name, d)] | .expression _ => []) := by
  have hnil : ∀ l : List (UnitEntry E M), (∀ x ∈ l, x.autogeneratedFrom.isSome = true) → basePairs l = [] := by
    intro l hl
    unfold basePairs
    rw [List.filterMap_eq_nil_iff]
    intro x hx
    simp [hl x hx]
  unfold UnitTemplate.expand
  rw [List.flatMap_append, basePairs_append, hnil, List.nil_append]
  · simp only [List.flatMap_cons, List.flatMap_nil, List.append_nil, List.map_append, List.map_cons, List.map_nil]
    rw [basePairs_append, hnil, List.nil_append]
    · simp only [basePairs, List.filterMap_cons, List.filterMap_nil, UnitTemplate.expandOne, UnitTemplate.getDefinition,
        Option.isSome_none, Option.isNone_none, Bool.or_self, Bool.and_self, if_true, Bool.false_eq_true, if_false]
      cases v.definition <;> rfl
    · intro x hx
      simp only [List.mem_map] at hx
      obtain ⟨al, ⟨a, _, rfl⟩, rfl⟩ := hx
      simp [UnitTemplate.expandOne]
  · intro x hx
    simp only [List.mem_flatMap, List.mem_map] at hx
    obtain ⟨pre, ⟨p, _, rfl⟩, al, _, rfl⟩ := hx
    simp [UnitTemplate.expandOne]

/-- The base unit statement, if it is one. -/
def basePair? (v : UnitTemplate E M) : Option (Str × Str) := match v.definition with | .base d => some (v.name, d) | .expression _ => none

theorem basePair?_eq {v : UnitTemplate E M} {n d : Str} : basePair? v = some (n, d) ↔ v.name = n ∧ v.definition = .base d := by
  unfold basePair?
  cases v.definition <;> simp

theorem basePairs_flatMap (one : M) (factor : Prefix → M) (vs : List (UnitTemplate E M)) :
    basePairs (vs.flatMap fun v => v.expand one factor) =
      vs.filterMap basePair? := by
  induction vs with
  | nil => rfl
  | cons v vs ih =>
    rw [List.flatMap_cons, basePairs_append, ih, basePairs_expand, List.filterMap_cons, basePair?]
    cases v.definition <;> rfl

/-! ### Kinds -/

theorem mem_checkKinds {l : List (Item E M)} (hn : (l.map Item.ident).Nodup) {x : Diag} :
    x ∈ checkKinds l ↔ ∃ i ∈ l, ∃ j ∈ l, j.ident ∈ i.refs ∧ i.kind.allows j.kind = false ∧
      x = .kindNotAllowed i.ident j.ident i.kind j.kind := by
  unfold checkKinds
  simp only [List.mem_flatMap, List.mem_filterMap]
  constructor
  · rintro ⟨i, hi, y, hy, h⟩
    cases hk : kindOf l y with
    | none => simp [hk] at h
    | some k =>
      have hj : ∃ j ∈ l, j.ident = y := by
        unfold kindOf at hk
        cases hf : l.reverse.find? fun i => decide (i.ident = y) with
        | none => rw [hf] at hk; simp at hk
        | some j =>
          have h1 := List.mem_of_find?_eq_some hf
          have h2 := List.find?_some hf
          exact ⟨j, by simpa using h1, by simpa using h2⟩
      obtain ⟨j, hj, rfl⟩ := hj
      rw [kindOf_of_mem hn hj] at hk
      injection hk with hk
      subst hk
      rw [kindOf_of_mem hn hj] at h
      simp only at h
      split at h
      · simp at h
      · rename_i ha
        injection h with h
        exact ⟨i, hi, j, hj, hy, by simpa using ha, h.symm⟩
  · rintro ⟨i, hi, j, hj, hr, ha, rfl⟩
    refine ⟨i, hi, j.ident, hr, ?_⟩
    rw [kindOf_of_mem hn hj]
    simp [ha]

/-- The word for what an item is. -/
def Kind.category : Kind → Category
  | .dimension => .dimension
  | .unit | .baseUnit => .unit
  | .constant => .constant

theorem is_of_item {u : UnresolvedDefs E M} {i : Item E M} (hi : i ∈ allItems u) : u.Is i.kind.category i.ident := by
  rcases mem_allItems.1 hi with ⟨d, hd, rfl⟩ | ⟨w, hw, rfl⟩ | ⟨c, hc, rfl⟩
  · exact ⟨d, hd, rfl⟩
  · cases hw' : w.definition with
    | base d => rw [ofUnit_kind_base hw']; exact ⟨w, hw, rfl⟩
    | expression e => rw [ofUnit_kind_expression hw']; exact ⟨w, hw, rfl⟩
  · exact ⟨c, hc, rfl⟩

theorem item_of_is {u : UnresolvedDefs E M} (hn : ((allItems u).map Item.ident).Nodup) {k : Category} {x : Str} (h : u.Is k x)
    {i : Item E M} (hi : i ∈ allItems u) (hx : i.ident = x) : i.kind.category = k := by
  subst hx
  cases k with
  | dimension =>
    obtain ⟨d, hd, he⟩ := h
    have := item_unique hn (mem_allItems.2 (.inl ⟨d, hd, rfl⟩)) hi he
    subst this; rfl
  | unit =>
    obtain ⟨d, hd, he⟩ := h
    have := item_unique hn (mem_allItems.2 (.inr (.inl ⟨d, hd, rfl⟩))) hi he
    subst this
    cases hw' : d.definition with
    | base d => rw [ofUnit_kind_base hw']; rfl
    | expression e => rw [ofUnit_kind_expression hw']; rfl
  | constant =>
    obtain ⟨d, hd, he⟩ := h
    have := item_unique hn (mem_allItems.2 (.inr (.inr ⟨d, hd, rfl⟩))) hi he
    subst this; rfl

theorem exists_item_of_is {u : UnresolvedDefs E M} {k : Category} {x : Str} (h : u.Is k x) : ∃ i ∈ allItems u, i.ident = x := by
  cases k with
  | dimension => obtain ⟨d, hd, he⟩ := h; exact ⟨_, mem_allItems.2 (.inl ⟨d, hd, rfl⟩), he⟩
  | unit => obtain ⟨d, hd, he⟩ := h; exact ⟨_, mem_allItems.2 (.inr (.inl ⟨d, hd, rfl⟩)), he⟩
  | constant => obtain ⟨d, hd, he⟩ := h; exact ⟨_, mem_allItems.2 (.inr (.inr ⟨d, hd, rfl⟩)), he⟩

/-- Two items, the second mentioned by the first against the rules. -/
theorem misuses_iff {u : UnresolvedDefs E M} (hn : ((allItems u).map Item.ident).Nodup) {x y : Str} {k l : Category} :
    u.Misuses x k y l ↔ ∃ i ∈ allItems u, ∃ j ∈ allItems u, i.ident = x ∧ j.ident = y ∧ j.ident ∈ i.refs ∧
      i.kind.allows j.kind = false ∧ i.kind.category = k ∧ j.kind.category = l := by
  have cat : ∀ κ : Kind, κ.category = .dimension ↔ κ = .dimension := by intro κ; cases κ <;> simp [Kind.category]
  constructor
  · intro h
    have hl : u.Is l y := by cases k <;> exact h.1
    obtain ⟨j, hj, rfl⟩ := exists_item_of_is hl
    have hjl := item_of_is hn hl hj rfl
    cases k with
    | dimension =>
      obtain ⟨_, hne, d, hd, rfl, hy⟩ := h
      refine ⟨_, mem_allItems.2 (.inl ⟨d, hd, rfl⟩), j, hj, rfl, rfl, by rw [ofDimension_refs]; exact hy, ?_, rfl, hjl⟩
      have : j.kind ≠ .dimension := fun h => hne (by rw [← hjl, h]; rfl)
      change Kind.allows .dimension j.kind = false
      simpa [Kind.allows] using this
    | unit =>
      obtain ⟨_, ⟨hne, v, hv, rfl, hd⟩ | ⟨hne, v, hv, rfl, e, hd, hy⟩⟩ := h
      · refine ⟨_, mem_allItems.2 (.inr (.inl ⟨v, hv, rfl⟩)), j, hj, rfl, rfl, ?_, ?_, ?_, hjl⟩
        · rw [ofUnit_refs, UnitEntry.mentions, hd]; simp
        · rw [ofUnit_kind_base hd]
          have : j.kind ≠ .dimension := fun h => hne (by rw [← hjl, h]; rfl)
          simpa [Kind.allows] using this
        · rw [ofUnit_kind_base hd]; rfl
      · refine ⟨_, mem_allItems.2 (.inr (.inl ⟨v, hv, rfl⟩)), j, hj, rfl, rfl, ?_, ?_, ?_, hjl⟩
        · rw [ofUnit_refs, UnitEntry.mentions, hd]; exact hy
        · rw [ofUnit_kind_expression hd, (cat _).1 (hjl.trans hne)]; rfl
        · rw [ofUnit_kind_expression hd]; rfl
    | constant =>
      obtain ⟨_, hne, c, hc, rfl, hy⟩ := h
      refine ⟨_, mem_allItems.2 (.inr (.inr ⟨c, hc, rfl⟩)), j, hj, rfl, rfl, by rw [ofConstant_refs]; exact hy, ?_, rfl, hjl⟩
      rw [(cat _).1 (hjl.trans hne)]; rfl
  · rintro ⟨i, hi, j, hj, rfl, rfl, hr, ha, rfl, rfl⟩
    have hl := is_of_item hj
    rcases mem_allItems.1 hi with ⟨d, hd, rfl⟩ | ⟨w, hw, rfl⟩ | ⟨c, hc, rfl⟩
    · rw [ofDimension_refs] at hr
      refine ⟨hl, ?_, d, hd, rfl, hr⟩
      rw [Ne, cat]; intro h; rw [h] at ha; simp [Item.kind, Item.ofDimension, Kind.allows] at ha
    · rw [ofUnit_refs] at hr
      cases hw' : w.definition with
      | base d =>
        rw [ofUnit_kind_base hw'] at ha ⊢
        rw [UnitEntry.mentions, hw', List.mem_singleton] at hr
        refine ⟨hl, .inl ⟨?_, w, hw, rfl, by rw [hw', hr]⟩⟩
        rw [Ne, cat]; intro h; rw [h] at ha; simp [Kind.allows] at ha
      | expression e =>
        rw [ofUnit_kind_expression hw'] at ha ⊢
        rw [UnitEntry.mentions, hw'] at hr
        refine ⟨hl, .inr ⟨?_, w, hw, rfl, e, hw', hr⟩⟩
        rw [cat]; cases hk : j.kind <;> rw [hk] at ha <;> simp_all [Kind.allows]
    · rw [ofConstant_refs] at hr
      refine ⟨hl, ?_, c, hc, rfl, hr⟩
      rw [cat]
      change Kind.allows .constant j.kind = false at ha
      cases hk : j.kind <;> rw [hk] at ha <;> simp_all [Kind.allows]

/-! ### Types -/

theorem mem_types {u : UnresolvedDefs E M} {defs : Defs E M} {ds : List Diag} (h : resolveDefs u = some (defs, ds)) {x : Diag}
    (hx : x.tag = 0 ∨ x.tag = 1) : x ∈ ds ↔ x ∈ (getSingleIdent u.quantityTypes (str!"quantity type") (str!"Quantity")).2 ∨
      x ∈ (getSingleIdent u.dimensionTypes (str!"dimension type") (str!"Dimension")).2 := by
  obtain ⟨res, d4, h1, _, _, _, _, _, _, hds⟩ := resolveDefs_diags h
  rw [hds]
  simp only [List.mem_append]
  constructor
  · rintro (((((h | h) | h) | h) | ((((h | h) | h) | h) | h)) | h)
    · exact .inl h
    · exact .inr h
    · have := tag_checkBaseUnits h; omega
    · have := tag_checkSymbols h; omega
    · have := tag_filterUndefined h; omega
    · have := tag_multiplyDefined h; omega
    · have := tag_checkKinds h; omega
    · have := tag_resolveLoop h1 h; omega
    · have := tag_checkAnnotations h; omega
    · have := tag_checkBaseSymbols h; omega
  · rintro (h | h) <;> simp only [h, true_or, or_true]

theorem mem_getSingleIdent {l : List Str} {n dflt : Str} {x : Diag} :
    x ∈ (getSingleIdent l n dflt).2 ↔ (l = [] ∧ x = .typeNone n) ∨ (1 < l.length ∧ x = .typeMultiple n l) := by
  match l with
  | [] => simp [getSingleIdent]
  | [a] => simp [getSingleIdent]
  | a :: b :: l => simp [getSingleIdent]

/-! ### Names of the generated definitions -/

theorem mem_defs_names {defs : Defs E M} {res : BMap (ResolvedItem E M)}
    (gdim : ∀ n d, (∃ D ∈ defs.dimensions, D.name = n ∧ D.dims = d) ↔
        ∃ r, res.get n = some r ∧ r.item.kind = .dimension ∧ r.dimensions.dims = d)
    (gunit : ∀ n d, defs.HasDims n d ↔ ∃ r, res.get n = some r ∧ r.item.kind ≠ .dimension ∧ r.dimensions.dims = d) (x : Str) :
    x ∈ defs.names ↔ ∃ r, res.get x = some r := by
  unfold Defs.names
  simp only [List.mem_append, List.mem_map, or_assoc]
  constructor
  · rintro (⟨D, hD, rfl⟩ | ⟨U, hU, rfl⟩ | ⟨C, hC, rfl⟩)
    · obtain ⟨r, hr, _⟩ := (gdim _ _).1 ⟨D, hD, rfl, rfl⟩; exact ⟨r, hr⟩
    · obtain ⟨r, hr, _⟩ := (gunit _ _).1 (.inl ⟨U, hU, rfl, rfl⟩); exact ⟨r, hr⟩
    · obtain ⟨r, hr, _⟩ := (gunit _ _).1 (.inr ⟨C, hC, rfl, rfl⟩); exact ⟨r, hr⟩
  · rintro ⟨r, hr⟩
    by_cases hk : r.item.kind = .dimension
    · obtain ⟨D, hD, hn, _⟩ := (gdim x _).2 ⟨r, hr, hk, rfl⟩
      exact .inl ⟨D, hD, hn⟩
    · rcases (gunit x _).2 ⟨r, hr, hk, rfl⟩ with ⟨U, hU, hn, _⟩ | ⟨C, hC, hn, _⟩
      · exact .inr (.inl ⟨U, hU, hn⟩)
      · exact .inr (.inr ⟨C, hC, hn⟩)

variable [ShowExponent E]

theorem listed_eq (d : Dims E) (keys : List Str) : d.listed keys = formatDims keys d := by
  unfold formatDims
  induction keys with
  | nil => rfl
  | cons k ks ih =>
    cases ks with
    | nil => rfl
    | cons k' ks =>
      unfold Dims.listed
      rw [ih]
      simp [joinStr]

theorem upper_eq (k : Kind) : k.upper = k.category.capital := by cases k <;> rfl
theorem lower_eq (k : Kind) : k.lower = k.category.word := by cases k <;> rfl
theorem rule_eq (k : Kind) : k.plural ++ str!" can only be defined in terms of " ++ k.allowedText ++ str!"." = k.category.rule := by
  cases k <;> rfl

theorem defined_items {factor : Prefix → M} {t : UnresolvedTemplates E M}
    (distinct : (UnresolvedTemplates.expand (MagOps.one E) factor t).names.Nodup)
    (defined : ∀ x rs, t.Introduces x rs → ∀ y ∈ rs, y ∈ (UnresolvedTemplates.expand (MagOps.one E) factor t).names) :
    ∀ i ∈ allItems (UnresolvedTemplates.expand (MagOps.one E) factor t), ∀ y ∈ i.refs,
      y ∈ (UnresolvedTemplates.expand (MagOps.one E) factor t).names := by
  intro i hi y hy
  have hin : i.ident ∈ (UnresolvedTemplates.expand (MagOps.one E) factor t).names := by
    rw [← allItems_ident]; exact List.mem_map_of_mem (f := Item.ident) hi
  obtain ⟨rs, hrs⟩ := (introduces_iff (factor := factor) (t := t) (one := MagOps.one E) i.ident).2 hin
  have := (survivors_introduces (factor := factor) (one := MagOps.one E) distinct i.ident).2 ⟨rs, hrs, defined _ _ hrs⟩
  obtain ⟨j, hj, hji⟩ := List.mem_map.1 this
  have hji' := item_unique (by rw [allItems_ident]; exact distinct) (mem_survivors hj) hi hji
  subst hji'
  have := ((mem_survivors_iff distinct).1 hj).2.1 y hy
  rwa [allItems_ident] at this

variable [LawfulExponent E]
/-- **C48, the whole list.** For a unit system whose names are distinct and whose definitions mention defined names only, the errors the
macro shows are exactly those of the specification `Complaint`: nothing is missing, nothing else is shown, and every error has the
specified text, marks the specified identifiers and carries the specified notes. (Undefined and duplicate names: `C48_undefined`,
`C48_duplicate`.) -/
theorem C48_exactly (factor : Prefix → M) (t : UnresolvedTemplates E M) (defs : Defs E M) (ds : List Diag)
    (run : runUnitSystem factor t = some (defs, ds))
    (distinct : (UnresolvedTemplates.expand (MagOps.one E) factor t).names.Nodup)
    (defined : ∀ x rs, t.Introduces x rs → ∀ y ∈ rs, y ∈ (UnresolvedTemplates.expand (MagOps.one E) factor t).names) :
    ∃ msgs, emitted (UnresolvedTemplates.expand (MagOps.one E) factor t) = some msgs ∧
      ∀ m, m ∈ msgs ↔ Complaint t (UnresolvedTemplates.expand (MagOps.one E) factor t) defs m := by
  have run' : resolveDefs (UnresolvedTemplates.expand (MagOps.one E) factor t) = some (defs, ds) := run
  have hdef := defined_items distinct defined
  have hau := allItems_autoOk (expand_autoOk (MagOps.one E) factor t)
  have hq : (UnresolvedTemplates.expand (MagOps.one E) factor t).quantityTypes = t.quantityTypes := rfl
  have hdt : (UnresolvedTemplates.expand (MagOps.one E) factor t).dimensionTypes = t.dimensionTypes := rfl
  have hbd : ∀ d, d ∈ ((UnresolvedTemplates.expand (MagOps.one E) factor t).dimensions.filter DimensionEntry.isBase).map DimensionEntry.name ↔
      ∃ e ∈ t.dimensions, e.name = d ∧ e.rhs = .base () := by
    intro d
    have hdims : (UnresolvedTemplates.expand (MagOps.one E) factor t).dimensions = t.dimensions := rfl
    have hb : ∀ e : DimensionEntry E, e.isBase = true ↔ e.rhs = .base () := by
      intro e; unfold DimensionEntry.isBase; cases e.rhs <;> simp
    rw [hdims]
    simp only [List.mem_map, List.mem_filter, hb]
    constructor
    · rintro ⟨e, ⟨h1, h2⟩, h3⟩; exact ⟨e, h1, h3, h2⟩
    · rintro ⟨e, h1, h2, h3⟩; exact ⟨e, ⟨h1, h3⟩, h2⟩
  have hpairs : basePairs (UnresolvedTemplates.expand (MagOps.one E) factor t).units =
      t.units.filterMap basePair? := basePairs_flatMap _ _ _
  have hrec := C09_recursive_iff factor t defs ds run distinct defined
  have hviol := C14_violated_iff_partial factor t defs ds run distinct
  have hsymb := C11_symbol_iff factor t defs ds run
  have htypes := fun x => @mem_types _ _ _ _ _ _ _ run' x
  simp only [hq, hdt] at htypes
  obtain ⟨res, d4, hl, hsort, horig, gdim, gunit⟩ := generated_dims run
  obtain ⟨res', d4', hloop', _, _, hund, hmul, hkind, _, hann, hbase, hbs⟩ := diag_origin run'
  rw [hl] at hloop'
  injection hloop' with hloop'
  injection hloop' with e1 e2
  subst e1; subst e2
  have hnames := mem_defs_names gdim gunit
  generalize hU : UnresolvedTemplates.expand (MagOps.one E) factor t = u at *
  have hn' : ((allItems u).map Item.ident).Nodup := by rwa [allItems_ident]
  have hu : (filterUndefined (allItems u)).2 = [] := by rw [filterUndefined_nil, allItems_ident]; exact hdef
  rw [hu] at hund
  rw [filterUndefined_eq hu, filterAutogenerated_eq hau] at hmul hkind
  rw [filterAutogenerated_eq hau] at hkind
  rw [multiplyDefined_nil.2 hn'] at hmul
  have gann : ∀ i ∈ allItems u, ∀ a, i.annotation = some a ↔ u.Annotated i.ident a := by
    intro i hi a
    constructor
    · intro ha
      rcases mem_allItems.1 hi with ⟨d, hd, rfl⟩ | ⟨w, hw, rfl⟩ | ⟨c, hc, rfl⟩
      · simp [Item.annotation, Item.ofDimension] at ha
      · exact .inl ⟨w, hw, rfl, ha⟩
      · exact .inr ⟨c, hc, rfl, ha⟩
    · rintro (⟨v, hv, he, ha⟩ | ⟨c, hc, he, ha⟩)
      · have := item_unique hn' (mem_allItems.2 (.inr (.inl ⟨v, hv, rfl⟩))) hi he
        subst this; exact ha
      · have := item_unique hn' (mem_allItems.2 (.inr (.inr ⟨c, hc, rfl⟩))) hi he
        subst this; exact ha
  have catD : ∀ κ : Kind, κ.category = .dimension ↔ κ = .dimension := by intro κ; cases κ <;> simp [Kind.category]
  have hsides : ∀ (x a : Str) (D : DimensionDef E) (d : Dims E), D ∈ defs.dimensions → D.name = a → defs.HasDims x d →
      resolvedDims res a = D.dims ∧ resolvedDims res x = d := by
    intro x a D d hD hDn hd
    obtain ⟨r, hr, _, hrd⟩ := (gunit x d).1 hd
    obtain ⟨r', hr', _, hrd'⟩ := (gdim a D.dims).1 ⟨D, hD, hDn, rfl⟩
    constructor
    · unfold resolvedDims; rw [hr']; exact hrd'
    · unfold resolvedDims; rw [hr]; exact hrd
  refine ⟨_, emitted_eq run' hl, fun m => ?_⟩
  rw [List.mem_flatMap]
  constructor
  · rintro ⟨d, hd, hm⟩
    cases d with
    | typeNone n =>
      rw [htypes _ (by simp [Diag.tag]), mem_getSingleIdent, mem_getSingleIdent] at hd
      simp only [Diag.messages, List.mem_singleton] at hm
      subst hm
      simp only [reduceCtorEq, and_false, or_false, Diag.typeNone.injEq] at hd
      rcases hd with ⟨h, rfl⟩ | ⟨h, rfl⟩
      · exact .noQuantityType h
      · exact .noDimensionType h
    | typeMultiple n ids =>
      rw [htypes _ (by simp [Diag.tag]), mem_getSingleIdent, mem_getSingleIdent] at hd
      simp only [Diag.messages, List.mem_map] at hm
      obtain ⟨x, hx, rfl⟩ := hm
      simp only [reduceCtorEq, and_false, false_or, Diag.typeMultiple.injEq] at hd
      rcases hd with ⟨h, rfl, rfl⟩ | ⟨h, rfl, rfl⟩
      · exact .severalQuantityTypes x h hx
      · exact .severalDimensionTypes x h hx
    | multipleBaseUnits d n =>
      rw [hbase _ (by simp [Diag.tag]), mem_multipleBaseUnits, hbd, hpairs] at hd
      simp only [Diag.messages, List.mem_singleton] at hm
      subst hm
      obtain ⟨hd, bef, aft, h, hc⟩ := hd
      obtain ⟨l1, l2, h1, h2, h3⟩ := List.filterMap_eq_append_iff.1 h
      obtain ⟨l3, v, l4, h4, h5, h6, h7⟩ := List.filterMap_eq_cons_iff.1 h3
      have hv := basePair?_eq.1 h6
      obtain ⟨rfl, hvd⟩ := hv
      refine .secondBaseUnit (l1 ++ l3) l4 v d (by rw [h1, h4]; simp) hvd hd ?_
      have : d ∈ bef.map Prod.snd := List.count_pos_iff.1 (by omega)
      obtain ⟨⟨n', d'⟩, hp, rfl⟩ := List.mem_map.1 this
      rw [← h2, List.mem_filterMap] at hp
      obtain ⟨w, hw, hwd⟩ := hp
      refine ⟨w, by simp [hw], ?_⟩
      exact (basePair?_eq.1 hwd).2
    | baseUnitForNonBase d n =>
      rw [hbase _ (by simp [Diag.tag]), mem_baseUnitForNonBase, hbd, hpairs, List.mem_filterMap] at hd
      simp only [Diag.messages, List.mem_singleton] at hm
      subst hm
      obtain ⟨hd, v, hv, hvd⟩ := hd
      obtain ⟨rfl, hvd'⟩ := basePair?_eq.1 hvd
      exact .notABaseDimension v d hv hvd' hd
    | symbolMultiple s units =>
      simp only [Diag.messages, List.mem_singleton] at hm
      subst hm
      obtain ⟨h1, rfl⟩ := (hsymb s units).1 hd
      exact .symbol s h1
    | undefined ids => rw [hund _ rfl] at hd; simp at hd
    | multipleDefinitions gs => rw [hmul _ rfl] at hd; simp at hd
    | kindNotAllowed l r lk rk =>
      rw [hkind _ rfl, mem_checkKinds hn'] at hd
      simp only [Diag.messages, List.mem_singleton] at hm
      subst hm
      obtain ⟨i, hi, j, hj, hr, ha, he⟩ := hd
      injection he with e1 e2 e3 e4
      subst e1; subst e2; subst e3; subst e4
      have := Complaint.kind (t := t) (defs := defs) _ _ _ _ ((misuses_iff hn').2 ⟨i, hi, j, hj, rfl, rfl, hr, ha, rfl, rfl⟩)
      rw [upper_eq, lower_eq, rule_eq]
      simpa using this
    | unresolvable ids =>
      simp only [Diag.messages, List.mem_map] at hm
      obtain ⟨x, hx, rfl⟩ := hm
      obtain ⟨y, h1, h2⟩ := (hrec x).1 ⟨ids, hd, hx⟩
      exact .recursive x y h1 h2
    | wrongTypeInAnnotation a k =>
      rw [hann _ (.inl rfl), mem_checkAnnotations] at hd
      simp only [Diag.messages, List.mem_singleton] at hm
      subst hm
      obtain ⟨n, it, b, hmem, hb, ⟨ann, g1, g2, he⟩ | ⟨_, _, _, _, he⟩ | ⟨_, he⟩⟩ := hd
      · injection he with e1 e2
        subst e1; subst e2
        have hg := (BMap.mem_iff_get hsort).1 hmem
        obtain ⟨hin, hid⟩ := horig _ _ hg
        obtain ⟨hin', hid'⟩ := horig _ _ g1
        rw [lower_eq]
        refine .annotationKind n a _ ?_ ((hnames _).2 ⟨_, hg⟩) ((hnames _).2 ⟨_, g1⟩) ?_ ?_
        · rw [← hid]; exact (gann _ hin _).1 hb
        · have := is_of_item hin'; rwa [hid'] at this
        · rw [Ne, catD]; exact g2
      · simp at he
      · simp at he
    | undefinedAnnotation a =>
      rw [hann _ (.inr (.inr rfl)), mem_checkAnnotations] at hd
      simp only [Diag.messages, List.mem_singleton] at hm
      subst hm
      obtain ⟨n, it, b, hmem, hb, ⟨ann, g1, g2, he⟩ | ⟨_, _, _, _, he⟩ | ⟨g1, he⟩⟩ := hd
      · simp at he
      · simp at he
      · injection he with e1
        subst e1
        have hg := (BMap.mem_iff_get hsort).1 hmem
        obtain ⟨hin, hid⟩ := horig _ _ hg
        refine .annotationUndefined n a ?_ ((hnames _).2 ⟨_, hg⟩) ?_
        · rw [← hid]; exact (gann _ hin _).1 hb
        · rw [hnames]; rintro ⟨r, hr⟩; rw [g1] at hr; simp at hr
    | violatedAnnotation x a =>
      simp only [Diag.messages, List.mem_singleton] at hm
      subst hm
      obtain ⟨hA, D, hD, hDn, d, hd, hne⟩ := (hviol x a).1 hd
      obtain ⟨e1, e2⟩ := hsides x a D d hD hDn hd
      rw [e1, e2]
      simp only [formatSides]
      rw [← listed_eq, ← listed_eq]
      refine .annotationViolated x a D d _ hA hD hDn hd hne (sortIdents_sorted (dedup_nodup _)) fun k => ?_
      rw [mem_sortIdents, availableDims, mem_dedup, List.mem_append]
    | noSymbolForBaseUnit n =>
      rw [hbs _ rfl] at hd
      simp only [Diag.messages, List.mem_singleton] at hm
      subst hm
      unfold checkBaseSymbols at hd
      obtain ⟨U, hU, h⟩ := List.mem_filterMap.1 hd
      split at h
      · rename_i hb
        injection h with h; injection h with h; subst h
        simp only [Bool.and_eq_true, Option.isNone_iff_eq_none] at hb
        exact .noSymbol U hU hb.1 hb.2
      · simp at h
  · intro h
    cases h with
    | noQuantityType h =>
      refine ⟨.typeNone (str!"quantity type"), ?_, by simp [Diag.messages]; rfl⟩
      rw [htypes _ (by simp [Diag.tag]), mem_getSingleIdent]
      exact .inl (.inl ⟨h, rfl⟩)
    | noDimensionType h =>
      refine ⟨.typeNone (str!"dimension type"), ?_, by simp [Diag.messages]; rfl⟩
      rw [htypes _ (by simp [Diag.tag]), mem_getSingleIdent, mem_getSingleIdent]
      exact .inr (.inl ⟨h, rfl⟩)
    | severalQuantityTypes x h hx =>
      refine ⟨.typeMultiple (str!"quantity type") t.quantityTypes, ?_, List.mem_map.2 ⟨x, hx, rfl⟩⟩
      rw [htypes _ (by simp [Diag.tag]), mem_getSingleIdent]
      exact .inl (.inr ⟨h, rfl⟩)
    | severalDimensionTypes x h hx =>
      refine ⟨.typeMultiple (str!"dimension type") t.dimensionTypes, ?_, List.mem_map.2 ⟨x, hx, rfl⟩⟩
      rw [htypes _ (by simp [Diag.tag]), mem_getSingleIdent, mem_getSingleIdent]
      exact .inr (.inr ⟨h, rfl⟩)
    | secondBaseUnit before after v d hsplit hvd hbdim hbefore =>
      refine ⟨.multipleBaseUnits d v.name, ?_, by simp [Diag.messages]⟩
      rw [hbase _ (by simp [Diag.tag]), mem_multipleBaseUnits, hbd, hpairs]
      refine ⟨hbdim, before.filterMap basePair?, after.filterMap basePair?, ?_, ?_⟩
      · rw [hsplit, List.filterMap_append, List.filterMap_cons, basePair?_eq.2 ⟨rfl, hvd⟩]
      · obtain ⟨w, hw, hwd⟩ := hbefore
        have : 0 < ((before.filterMap basePair?).map Prod.snd).count d := by
          rw [List.count_pos_iff, List.mem_map]
          exact ⟨(w.name, d), List.mem_filterMap.2 ⟨w, hw, basePair?_eq.2 ⟨rfl, hwd⟩⟩, rfl⟩
        omega
    | notABaseDimension v d hv hvd hnb =>
      refine ⟨.baseUnitForNonBase d v.name, ?_, by simp [Diag.messages]⟩
      rw [hbase _ (by simp [Diag.tag]), mem_baseUnitForNonBase, hbd, hpairs]
      exact ⟨hnb, List.mem_filterMap.2 ⟨v, hv, basePair?_eq.2 ⟨rfl, hvd⟩⟩⟩
    | symbol s h =>
      exact ⟨.symbolMultiple s _, (hsymb s _).2 ⟨h, rfl⟩, by simp [Diag.messages]⟩
    | kind x y k l h =>
      obtain ⟨i, hi, j, hj, rfl, rfl, hr, ha, rfl, rfl⟩ := (misuses_iff hn').1 h
      refine ⟨.kindNotAllowed i.ident j.ident i.kind j.kind, ?_, ?_⟩
      · rw [hkind _ rfl, mem_checkKinds hn']
        exact ⟨i, hi, j, hj, hr, ha, rfl⟩
      · simp only [Diag.messages, List.mem_singleton]
        rw [upper_eq, lower_eq, rule_eq]
        simp
    | recursive x y h1 h2 =>
      obtain ⟨ids, h, hx⟩ := (hrec x).2 ⟨y, h1, h2⟩
      exact ⟨_, h, List.mem_map.2 ⟨x, hx, rfl⟩⟩
    | annotationKind x a k hA hx ha hk hne =>
      obtain ⟨r, hr⟩ := (hnames x).1 hx
      obtain ⟨r', hr'⟩ := (hnames a).1 ha
      obtain ⟨hin, hid⟩ := horig _ _ hr
      obtain ⟨hin', hid'⟩ := horig _ _ hr'
      have hcat := item_of_is hn' hk hin' hid'
      refine ⟨.wrongTypeInAnnotation a r'.item.kind, ?_, ?_⟩
      · rw [hann _ (.inl rfl), mem_checkAnnotations]
        refine ⟨x, r, a, (BMap.mem_iff_get hsort).2 hr, ?_, .inl ⟨r', hr', ?_, rfl⟩⟩
        · rw [gann _ hin, hid]; exact hA
        · rw [Ne, ← catD, hcat]; exact hne
      · simp only [Diag.messages, List.mem_singleton]
        rw [lower_eq, hcat]
    | annotationUndefined x a hA hx ha =>
      obtain ⟨r, hr⟩ := (hnames x).1 hx
      obtain ⟨hin, hid⟩ := horig _ _ hr
      refine ⟨.undefinedAnnotation a, ?_, by simp [Diag.messages]⟩
      rw [hann _ (.inr (.inr rfl)), mem_checkAnnotations]
      refine ⟨x, r, a, (BMap.mem_iff_get hsort).2 hr, ?_, .inr (.inr ⟨?_, rfl⟩)⟩
      · rw [gann _ hin, hid]; exact hA
      · rw [hnames] at ha
        cases hg : res.get a with
        | none => rfl
        | some r => exact absurd ⟨r, hg⟩ ha
    | annotationViolated x a D d keys hA hD hDn hd hne hsorted hkeys =>
      refine ⟨.violatedAnnotation x a, (hviol x a).2 ⟨hA, D, hD, hDn, d, hd, hne⟩, ?_⟩
      obtain ⟨e1, e2⟩ := hsides x a D d hD hDn hd
      have hk : keys = sortIdents (availableDims D.dims d) := by
        refine sorted_unique hsorted (sortIdents_sorted (dedup_nodup _)) fun k => ?_
        rw [hkeys, mem_sortIdents, availableDims, mem_dedup, List.mem_append]
      simp only [Diag.messages, List.mem_singleton]
      rw [e1, e2, listed_eq, listed_eq, hk]
      rfl
    | noSymbol U hU hb hs =>
      refine ⟨.noSymbolForBaseUnit U.name, ?_, by simp [Diag.messages]⟩
      rw [hbs _ rfl]
      unfold checkBaseSymbols
      exact List.mem_filterMap.2 ⟨U, hU, by simp [hb, hs]⟩
end

/-! ### The hypotheses are met -/
section
open Sample
attribute [local instance] Sample.exactMag

/-- A unit defined from a dimension, a second base unit without symbol, and a unit annotated with a unit. -/
def sixProblems : UnresolvedTemplates Int ℚ where
  quantityTypes := [str!"Q", str!"R"]
  dimensionTypes := [str!"D"]
  dimensions := [⟨str!"Length", .base ()⟩]
  units := [baseUnit (str!"meters") (str!"m") (str!"Length") [],
    ⟨str!"feet", none, [], [], none, .base (str!"Length")⟩,
    unit (str!"foo") (.value (v (str!"Length"))) none [] none,
    unit (str!"bar") (.value (v (str!"meters"))) none [] (some (str!"feet"))]
  constants := []

example : (UnresolvedTemplates.expand (MagOps.one Int) exactFactor sixProblems).names.Nodup := by decide +kernel
example : ∀ x rs, sixProblems.Introduces x rs → ∀ y ∈ rs, y ∈ (UnresolvedTemplates.expand (MagOps.one Int) exactFactor sixProblems).names := by
  have key : ∀ rs ∈ sixProblems.dimensions.map DimensionEntry.mentions ++ sixProblems.units.map UnitTemplate.mentions,
      ∀ y ∈ rs, y ∈ (UnresolvedTemplates.expand (MagOps.one Int) exactFactor sixProblems).names := by decide +kernel
  rintro x rs (⟨d, hd, _, rfl⟩ | ⟨v, hv, _, rfl⟩ | ⟨c, hc, _⟩)
  · exact key _ (List.mem_append_left _ (List.mem_map_of_mem hd))
  · exact key _ (List.mem_append_right _ (List.mem_map_of_mem hv))
  · simp [sixProblems] at hc
example : (runUnitSystem exactFactor sixProblems).isSome := by decide +kernel
/-- All of them are shown. -/
example : (emitted (UnresolvedTemplates.expand (MagOps.one Int) exactFactor sixProblems)).map (·.map Message.text) =
    some [str!"Multiple definitions for quantity type \"Q\".", str!"Multiple definitions for quantity type \"R\".",
      str!"'feet' is defined to be a base unit for dimension 'Length', but there already is a base unit for this dimension.",
      str!"Unit foo is defined in terms of the dimension Length.",
      str!"Type error in annotation: Expected dimension, found unit 'feet'.",
      str!"Unit feet is declared as a base unit but does not define its symbol."] := by decide +kernel

/-- `#[base(meters)] unit foo`, where `meters` is a unit. -/
def baseOfUnit : UnresolvedTemplates Int ℚ where
  quantityTypes := [str!"Q"]
  dimensionTypes := [str!"D"]
  dimensions := [⟨str!"Length", .base ()⟩]
  units := [baseUnit (str!"meters") (str!"m") (str!"Length") [], baseUnit (str!"foo") (str!"f") (str!"meters") []]
  constants := []

/-- **C48, a note that misleads.** A base unit declared for a unit is refused with a note saying that units may be defined in terms of
units: the texts do not distinguish base units from other units. -/
theorem C48_misleading_note :
    ∃ msgs m, emitted (UnresolvedTemplates.expand (MagOps.one Int) exactFactor baseOfUnit) = some msgs ∧ m ∈ msgs ∧
      m.text = str!"Unit foo is defined in terms of the unit meters." ∧
      m.notes = [(.note, str!"Units can only be defined in terms of other units and constants.")] := by
  have h : (emitted (UnresolvedTemplates.expand (MagOps.one Int) exactFactor baseOfUnit)) =
    some [⟨str!"'foo' is defined to be a base unit for dimension 'meters', but 'meters' is not a base dimension.", [str!"foo"],
        [(.note, str!"Base units can only be defined for base dimensions.")]⟩,
      ⟨str!"Unit foo is defined in terms of the unit meters.", [str!"foo", str!"meters"],
        [(.note, str!"Units can only be defined in terms of other units and constants.")]⟩,
      ⟨str!"Type error in annotation: Expected dimension, found unit 'meters'.", [str!"meters"],
        [(.note, str!"Annotations can only be done using dimensions.")]⟩] := by decide +kernel
  exact ⟨_, _, h, List.mem_cons_of_mem _ (List.mem_cons_self ..), rfl, rfl⟩
end
end Diman
