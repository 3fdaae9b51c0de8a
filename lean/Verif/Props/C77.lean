import Verif.Spec.Archive
import Verif.Props.C76
/-!
# C77 — stored data survives every history
`Archive.Reachable` (Spec/Archive) is the set of states that writing, deleting, copying, migrating and tearing records and extending the unit system can lead to, in
any order and number.
-/
set_option linter.unusedSectionVars false
namespace Diman
open LawfulExponent

theorem Extends.trans {E M U : Type} {t t' t'' : Unresolved E M U} (h : Extends t t') (h' : Extends t' t'') : Extends t t'' :=
  ⟨h.1.trans h'.1, h.2.trans h'.2, h.3.trans h'.3, h.4.trans h'.4, h.5.trans h'.5⟩

section
variable {E K M ι : Type} [Exponent E] [LawfulExponent E] [FieldOps E] [LawfulFieldOps E] [TotalFields E] [WrittenExponent E]
  [ShowExponent E] [LawfulShow E] [MagOps E M] [Prims K M] [TextPrims K M] [LawfulText E K M] [DecidableEq ι]

/-- Where a text comes from: an earlier version, which the current one extends, wrote it. -/
def Wrote (factor : Prefix → M) (t : UnresolvedTemplates E M) (c : Content K) (text : Str) : Prop :=
  c.value.length = c.storage.numDims ∧ (∀ x ∈ c.value, LawfulText.Valid E M c.storage.base x) ∧
  ∃ t0 defs0 d0, GoodVersion K factor t0 defs0 ∧ Extends t0 t ∧ Denotes defs0 d0 c.dimension ∧ serializeStr M defs0 c.storage d0 c.value = some text

theorem Wrote.upgrade {factor : Prefix → M} {t t' : UnresolvedTemplates E M} {c : Content K} {text : Str} (h : Wrote factor t c text) (ext : Extends t t') :
    Wrote factor t' c text := by
  obtain ⟨h1, h2, t0, defs0, d0, h3, h4, h5⟩ := h
  exact ⟨h1, h2, t0, defs0, d0, h3, h4.trans ext, h5⟩

theorem Wrote.read {factor : Prefix → M} {t : UnresolvedTemplates E M} {defs : Defs E M} {c : Content K} {text : Str} (h : Wrote factor t c text)
    (good : GoodVersion K factor t defs) {d : DimVal E} (fields : d.length = defs.baseDimensions.length) (canonical : d.Canonical)
    (denotes : exponentAt defs.baseDimensions d = c.dimension) : deserializeStr M defs c.storage d text = some (.ok c.value) := by
  obtain ⟨h1, h2, t0, defs0, d0, h3, h4, h5, h6⟩ := h
  obtain ⟨text', hw, hr⟩ := C59_saved factor t0 t h4 defs0 defs h3.accepted good.accepted h3.literals good.literals good.distinct h3.hasBase h3.symbols
    good.finite d0 d h5.fields h5.integer fields canonical (fun k => by rw [h5.exponents, denotes]) c.storage c.value h1 h2
  rw [h6, Option.some.injEq] at hw
  rw [hw]; exact hr

/-- A torn text of a quantity that has a dimension is refused. -/
theorem Wrote.refuse {factor : Prefix → M} {t : UnresolvedTemplates E M} {defs : Defs E M} {c : Content K} {text cut : Str} (h : Wrote factor t c text)
    (good : GoodVersion K factor t defs) (safe : TearSafe defs) (nonzero : ∃ k, c.dimension k ≠ 0) (initial : cut <+: text) (short : cut ≠ text)
    {d : DimVal E} (fields : d.length = defs.baseDimensions.length) (canonical : d.Canonical)
    (denotes : exponentAt defs.baseDimensions d = c.dimension) (r : Raw K) : deserializeStr M defs c.storage d cut ≠ some (.ok r) := by
  obtain ⟨h1, h2, t0, defs0, d0, h3, h4, h5, h6⟩ := h
  refine C76_cut_refused factor t0 t h4 defs0 defs h3.accepted good.accepted h3.literals good.literals good.distinct h3.symbols safe d0 d h5.fields h5.integer
    ?_ fields canonical (fun k => by rw [h5.exponents, denotes]) c.storage c.value h1 h2 text h6 cut initial short r
  obtain ⟨k, hk⟩ := nonzero
  rw [← h5.exponents] at hk
  unfold exponentAt at hk
  cases hf : ((defs0.baseDimensions.zip d0).find? fun p => decide (p.1 = k)) with
  | none => rw [hf] at hk; simp at hk
  | some p =>
    rw [hf] at hk
    exact ⟨p.2, (List.of_mem_zip (List.mem_of_find?_eq_some hf)).2, by simpa using hk⟩

theorem Denotes.canonical {defs : Defs E M} {d : DimVal E} {x : Str → ℚ} (h : Denotes defs d x) : d.Canonical := by
  intro e he
  obtain ⟨i, -, rfl⟩ := h.integer e he
  exact ofInt_canon i

/-- The current version is good, and every record that is not torn was written by an earlier version. -/
structure Archive.Inv (factor : Prefix → M) (Ok : Defs E M → Prop) (σ : Archive E K M ι) : Prop where
  good : GoodVersion K factor σ.templates σ.defs
  ok : Ok σ.defs
  present : ∀ i, (σ.text i).isSome = (σ.content i).isSome
  intact : ∀ i c text, σ.content i = some c → σ.text i = some text → c.torn = false → Wrote factor σ.templates c text
  typed : ∀ i c, σ.content i = some c → ∃ t0 defs0 d0, GoodVersion K factor t0 defs0 ∧ Extends t0 σ.templates ∧ Denotes defs0 d0 c.dimension
  torn : (∀ defs, Ok defs → TearSafe defs) → ∀ i c text, σ.content i = some c → σ.text i = some text → c.torn = true → (∃ k, c.dimension k ≠ 0) →
    ∃ whole, Wrote factor σ.templates c whole ∧ text <+: whole ∧ text ≠ whole

theorem Archive.Reachable.inv {factor : Prefix → M} {Ok : Defs E M → Prop} {σ : Archive E K M ι} (h : σ.Reachable factor Ok) : σ.Inv factor Ok := by
  induction h with
  | start t defs good ok => exact ⟨good, ok, fun _ => rfl, fun _ _ _ h => by (cases h), fun _ _ h => by (cases h), fun _ _ _ _ h => by cases h⟩
  | step _ event ih =>
    cases event with
    | write i s d x xs new type components valid written =>
      refine ⟨ih.good, ih.ok, fun j => ?_, fun j c text h1 h2 h3 => ?_, fun j c h1 => ?_, fun hok j c text h1 h2 h3 h4 => ?_⟩
      · simp only [Function.update_apply]; split <;> simp [ih.present]
      · simp only [Function.update_apply] at h1 h2
        split at h1
        · rename_i hj
          simp only [hj, if_true, Option.some.injEq] at h1 h2
          subst h1; subst h2
          exact ⟨components, valid, _, _, d, ih.good, .refl _, type, written⟩
        · rename_i hj
          rw [if_neg hj] at h2
          exact ih.intact j c text h1 h2 h3
      · simp only [Function.update_apply] at h1
        split at h1
        · cases h1; exact ⟨_, _, d, ih.good, .refl _, type⟩
        · exact ih.typed j c h1
      · simp only [Function.update_apply] at h1 h2
        split at h1
        · cases h1; cases h3
        · rename_i hj
          rw [if_neg hj] at h2
          exact ih.torn hok j c text h1 h2 h3 h4
    | delete i =>
      refine ⟨ih.good, ih.ok, fun j => ?_, fun j c text h1 h2 h3 => ?_, fun j c h1 => ?_, fun hok j c text h1 h2 h3 h4 => ?_⟩
      · simp only [Function.update_apply]; split <;> simp [ih.present]
      · simp only [Function.update_apply] at h1 h2
        split at h1
        · cases h1
        · rename_i hj
          rw [if_neg hj] at h2
          exact ih.intact j c text h1 h2 h3
      · simp only [Function.update_apply] at h1
        split at h1
        · cases h1
        · exact ih.typed j c h1
      · simp only [Function.update_apply] at h1 h2
        split at h1
        · cases h1
        · rename_i hj
          rw [if_neg hj] at h2
          exact ih.torn hok j c text h1 h2 h3 h4
    | copy i k =>
      refine ⟨ih.good, ih.ok, fun j => ?_, fun j c text h1 h2 h3 => ?_, fun j c h1 => ?_, fun hok j c text h1 h2 h3 h4 => ?_⟩
      · simp only [Function.update_apply]; split <;> simp [ih.present]
      · simp only [Function.update_apply] at h1 h2
        split at h1
        · rename_i hj
          rw [if_pos hj] at h2
          exact ih.intact i c text h1 h2 h3
        · rename_i hj
          rw [if_neg hj] at h2
          exact ih.intact j c text h1 h2 h3
      · simp only [Function.update_apply] at h1
        split at h1
        · exact ih.typed i c h1
        · exact ih.typed j c h1
      · simp only [Function.update_apply] at h1 h2
        split at h1
        · rename_i hj
          rw [if_pos hj] at h2
          exact ih.torn hok i c text h1 h2 h3 h4
        · rename_i hj
          rw [if_neg hj] at h2
          exact ih.torn hok j c text h1 h2 h3 h4
    | rewrite i c' d old new xs here type stored read written =>
      refine ⟨ih.good, ih.ok, fun j => ?_, fun j c text h1 h2 h3 => ?_, fun j c h1 => ?_, fun hok j c text h1 h2 h3 h4 => ?_⟩
      · simp only [Function.update_apply]
        split
        · rename_i hj; rw [hj, here]; rfl
        · exact ih.present j
      · simp only [Function.update_apply] at h2
        split at h2
        · rename_i hj
          subst hj
          rw [here, Option.some.injEq] at h1
          subst h1
          have w := ih.intact j c' old here stored h3
          have := w.read ih.good type.fields type.canonical type.exponents
          rw [read] at this
          cases this
          cases h2
          exact ⟨w.1, w.2.1, _, _, d, ih.good, .refl _, type, written⟩
        · exact ih.intact j c text h1 h2 h3
      · exact ih.typed j c h1
      · simp only [Function.update_apply] at h2
        split at h2
        · rename_i hj
          subst hj
          rw [here, Option.some.injEq] at h1
          subst h1
          obtain ⟨whole, w, hp, hne⟩ := ih.torn hok j c' old here stored h3 h4
          exact absurd read (w.refuse ih.good (hok _ ih.ok) h4 hp hne type.fields type.canonical type.exponents xs)
        · exact ih.torn hok j c text h1 h2 h3 h4
    | tear i c' old cut here stored initial short =>
      refine ⟨ih.good, ih.ok, fun j => ?_, fun j c text h1 h2 h3 => ?_, fun j c h1 => ?_, fun hok j c text h1 h2 h3 h4 => ?_⟩
      · simp only [Function.update_apply]; split <;> simp [ih.present]
      · simp only [Function.update_apply] at h1 h2
        split at h1
        · cases h1; cases h3
        · rename_i hj
          rw [if_neg hj] at h2
          exact ih.intact j c text h1 h2 h3
      · simp only [Function.update_apply] at h1
        split at h1
        · cases h1; exact ih.typed i c' here
        · exact ih.typed j c h1
      · simp only [Function.update_apply] at h1 h2
        split at h1
        · rename_i hj
          rw [if_pos hj] at h2
          cases h1; cases h2
          cases ht : c'.torn with
          | false =>
            have w := ih.intact i c' old here stored ht
            exact ⟨old, w, initial, short⟩
          | true =>
            obtain ⟨whole, w, hp, hne⟩ := ih.torn hok i c' old here stored ht h4
            refine ⟨whole, w, initial.trans hp, fun h => ?_⟩
            have l1 := initial.length_le
            have l2 := hp.length_le
            rw [h] at l1
            exact hne (hp.eq_of_length (by omega))
        · rename_i hj
          rw [if_neg hj] at h2
          exact ih.torn hok j c text h1 h2 h3 h4
    | upgrade t' defs' ext good ok =>
      exact ⟨good, ok, ih.present, fun j c text h1 h2 h3 => (ih.intact j c text h1 h2 h3).upgrade ext, fun j c h1 => by
        obtain ⟨t0, defs0, d0, g1, g2, g3⟩ := ih.typed j c h1
        exact ⟨t0, defs0, d0, g1, g2.trans ext, g3⟩, fun hok j c text h1 h2 h3 h4 => by
        obtain ⟨whole, w, hp⟩ := ih.torn hok j c text h1 h2 h3 h4
        exact ⟨whole, w.upgrade ext, hp⟩⟩

/-- **C77.** After any history, every record that is not torn is read by the current version, as a quantity of its storage type and dimension, with exactly the
value that was last written to it. -/
theorem C77_history (factor : Prefix → M) (Ok : Defs E M → Prop) (σ : Archive E K M ι) (reachable : σ.Reachable factor Ok) (i : ι) (c : Content K)
    (here : σ.content i = some c) (whole : c.torn = false) (d : DimVal E) (fields : d.length = σ.defs.baseDimensions.length) (canonical : d.Canonical)
    (denotes : exponentAt σ.defs.baseDimensions d = c.dimension) :
    ∃ text, σ.text i = some text ∧ deserializeStr M σ.defs c.storage d text = some (.ok c.value) := by
  have inv := reachable.inv
  have := inv.present i
  rw [here, Option.isSome_some, Option.isSome_iff_exists] at this
  obtain ⟨text, ht⟩ := this
  exact ⟨text, ht, (inv.intact i c text here ht whole).read inv.good fields canonical denotes⟩

/-- **C77, torn records.** If the symbols of all versions are tear-safe, then after any history a torn record of a quantity that has a dimension is not read as a
quantity of its type, whatever the value would be. -/
theorem C77_torn (factor : Prefix → M) (σ : Archive E K M ι) (reachable : σ.Reachable factor TearSafe) (i : ι) (c : Content K)
    (here : σ.content i = some c) (torn : c.torn = true) (nonzero : ∃ k, c.dimension k ≠ 0) (d : DimVal E) (fields : d.length = σ.defs.baseDimensions.length)
    (canonical : d.Canonical) (denotes : exponentAt σ.defs.baseDimensions d = c.dimension) (text : Str) (stored : σ.text i = some text) (r : Raw K) :
    deserializeStr M σ.defs c.storage d text ≠ some (.ok r) := by
  have inv := reachable.inv
  obtain ⟨whole, w, hp, hne⟩ := inv.torn (fun _ h => h) i c text here stored torn nonzero
  exact w.refuse inv.good inv.ok nonzero hp hne fields canonical denotes r

/-- **C77, the type still exists.** Whatever was stored in the past, the current version has a quantity type of its dimension. -/
theorem C77_type (factor : Prefix → M) (Ok : Defs E M → Prop) (σ : Archive E K M ι) (reachable : σ.Reachable factor Ok) (i : ι) (c : Content K)
    (here : σ.content i = some c) : ∃ d, Denotes σ.defs d c.dimension := by
  have inv := reachable.inv
  obtain ⟨t0, defs0, d0, g1, g2, g3⟩ := inv.typed i c here
  have ex := C52_extension factor t0 σ.templates g2 defs0 σ.defs g1.accepted inv.good.accepted
  have hint : ∀ k, ∃ n : Int, InI32 n ∧ c.dimension k = n := by
    intro k
    rw [← g3.exponents]
    unfold exponentAt
    cases hf : ((defs0.baseDimensions.zip d0).find? fun p => decide (p.1 = k)) with
    | none => exact ⟨0, by decide, by simp⟩
    | some p =>
      obtain ⟨n, hn, he⟩ := g3.integer p.2 (List.of_mem_zip (List.mem_of_find?_eq_some hf)).2
      exact ⟨n, hn, by simp [he, ofInt_val]⟩
  choose f hf using hint
  refine ⟨σ.defs.baseDimensions.map fun k => Exponent.ofInt (f k), by simp, ?_, ?_⟩
  · intro e he
    obtain ⟨k, -, rfl⟩ := List.mem_map.1 he
    exact ⟨f k, (hf k).1, rfl⟩
  · funext k
    by_cases hk : k ∈ σ.defs.baseDimensions
    · have := vec_exponentAt inv.good.distinct (d := σ.defs.baseDimensions.map fun k => (Exponent.ofInt (f k) : E)) (by simp)
      simp only [DimVal.vec, List.map_map] at this
      have := (List.map_inj_left.1 this k hk).symm
      rw [this, (hf k).2]
      exact ofInt_val _
    · rw [exponentAt_absent hk, ← g3.exponents, exponentAt_absent fun h => hk (ex.2.2.2.2.2.subset h)]

/-- **C77, migration.** After any history, every record that is not torn can be read as a quantity of its type and written back by the current version, and the
result is again such a store. -/
theorem C77_migration (factor : Prefix → M) (Ok : Defs E M → Prop) (σ : Archive E K M ι) (reachable : σ.Reachable factor Ok) (i : ι) (c : Content K)
    (here : σ.content i = some c) (whole : c.torn = false) (d : DimVal E) (type : Denotes σ.defs d c.dimension) :
    ∃ old new, σ.text i = some old ∧ deserializeStr M σ.defs c.storage d old = some (.ok c.value) ∧
      serializeStr M σ.defs c.storage d c.value = some new ∧ Archive.Reachable factor Ok { σ with text := Function.update σ.text i (some new) } := by
  have inv := reachable.inv
  obtain ⟨old, h1, h2⟩ := C77_history factor Ok σ reachable i c here whole d type.fields type.canonical type.exponents
  have w := inv.intact i c old here h1 whole
  obtain ⟨new, h3, -⟩ := C59_saved factor σ.templates σ.templates (.refl _) σ.defs σ.defs inv.good.accepted inv.good.accepted inv.good.literals
    inv.good.literals inv.good.distinct inv.good.hasBase inv.good.symbols inv.good.finite d d type.fields type.integer type.fields type.canonical
    (sameDimension_refl _ _) c.storage c.value w.1 w.2.1
  exact ⟨old, new, h1, h2, h3, .step reachable (.rewrite σ i c d old new c.value here type h1 h2 h3)⟩

/-- A text names one dimension only. -/
theorem one_dimension {defs : Defs E M} {s s' : Storage} (kind : s.isFloat = s'.isFloat) {d d' : DimVal E} {text : Str} {r r' : Raw K}
    (h : deserializeStr M defs s d text = some (.ok r)) (h' : deserializeStr M defs s' d' text = some (.ok r')) : d = d' := by
  unfold deserializeStr at h h'
  rw [bindM_eq_some] at h h'
  obtain ⟨tbl, ht, h⟩ := h
  obtain ⟨tbl', ht', h'⟩ := h'
  rw [ht, Option.some.injEq] at ht'
  subst ht'
  have same : ∀ {x x' : Raw K} {a : DimVal E}, ifDimensionsMatch d x a = .ok r → ifDimensionsMatch d' x' a = .ok r' → d = d' := by
    intro x x' a g g'
    unfold ifDimensionsMatch at g g'
    split at g <;> split at g' <;> simp_all
  cases hs : s.isFloat with
  | true =>
    rw [hs] at kind
    simp only [hs, ← kind, if_true, pure_eq_some] at h h'
    unfold visitStrFloat at h h'
    split at h
    · cases h
    · rename_i w ws hw
      rw [hw] at h'
      simp only [Outcome.bind_ok] at h h'
      obtain ⟨_, _, df, e, m⟩ := h
      obtain ⟨_, _, df', e', m'⟩ := h'
      rw [e] at e'; cases e'
      exact same m m'
  | false =>
    rw [hs] at kind
    simp only [hs, ← kind, Bool.false_eq_true, if_false, pure_eq_some] at h h'
    unfold visitStrVector at h h'
    simp only at h h'
    split at h
    · cases h
    · rename_i c1
      rw [if_neg c1] at h'
      split at h
      · cases h
      · rename_i c2
        rw [if_neg c2] at h'
        split at h
        · cases h
        · split at h'
          · cases h'
          · simp only [Outcome.bind_ok] at h h'
            obtain ⟨_, _, df, e, m⟩ := h
            obtain ⟨_, _, df', e', m'⟩ := h'
            rw [e] at e'; cases e'
            exact same m m'

/-- **C77, no other dimension.** After any history, no record that is not torn is read as a quantity of another dimension (of whatever precision). -/
theorem C77_no_other (factor : Prefix → M) (Ok : Defs E M → Prop) (σ : Archive E K M ι) (reachable : σ.Reachable factor Ok) (i : ι) (c : Content K)
    (here : σ.content i = some c) (whole : c.torn = false) (text : Str) (stored : σ.text i = some text) (s : Storage) (kind : s.isFloat = c.storage.isFloat)
    (d : DimVal E) (r : Raw K) (read : deserializeStr M σ.defs s d text = some (.ok r)) : exponentAt σ.defs.baseDimensions d = c.dimension := by
  obtain ⟨d0, hd0⟩ := C77_type factor Ok σ reachable i c here
  obtain ⟨text', h1, h2⟩ := C77_history factor Ok σ reachable i c here whole d0 hd0.fields hd0.canonical hd0.exponents
  rw [stored, Option.some.injEq] at h1
  subst h1
  rw [one_dimension kind read h2, hd0.exponents]
end

/-- **C77, the SI.** A history can begin with the SI of src/si.rs: it is a good version, and its symbols are tear-safe. -/
theorem C77_si (std : Bool) (powf : Fl → Fl → Fl) (P : PlatformFns) (hP : P.lib = buildLib std powf) (hl : P.lib.Ones) :
    letI := magOpsInt P.lib; letI := softPrims P; letI := softText coreText; letI := softLawfulInt P coreText hl coreText_roundTrips
    ∃ tokens t defs, lex siLines = some tokens ∧ unitSystem (E := Int) Number.magnitude Prefix.factor tokens = .done (defs, []) ∧
      Archive.Reachable Prefix.factor TearSafe (⟨t, defs, fun _ => none, fun _ => none⟩ : Archive Int Fl Magnitude Nat) := by
  have c46 := C46_si_float std powf
  rw [← hP] at c46
  let := magOpsInt P.lib; let := softPrims P; let := softText coreText
  let := softLawfulInt P coreText hl coreText_roundTrips
  obtain ⟨t, defs, F⟩ := si_facts (C36_int Number.magnitude Prefix.factor) c46
  obtain ⟨tokens, h1, h2⟩ := F.text
  refine ⟨tokens, t, defs, h1, h2, .start t defs ⟨F.run, C18_literals_int _, by rw [F.base]; decide, F.hasBase, F.plain, ?_⟩ ?_⟩
  · intro U hU
    obtain ⟨r, hr, pre, _, e2, _⟩ := F.units U hU
    exact text_finite coreText (si_storable hr e2).1
  · refine si_tear_safe F fun U hU hone r hr pre ⟨q, hq, he⟩ => ?_
    have hone' : U.mag.intoF64 P.lib = f64Fmt.ofInt 1 := LawfulText.isOne_into (E := Int) (K := Fl) hone
    rw [hone', show f64Fmt.val (f64Fmt.ofInt 1) = some 1 by decide +kernel, Option.some.injEq] at hq
    subst hq
    refine si_coherent r hr pre (mem_allPrefixes pre) (he.trans (mul_le_mul_of_nonneg_right ?_ (abs_nonneg _)))
    cases std <;> norm_num

/-! ## A history -/
section
open Sample
attribute [local instance] Sample.exactMag Sample.ratPrims Sample.ratText Sample.ratLawful

theorem C77.plain {t : UnresolvedTemplates Int ℚ}
    (h : ∀ v ∈ t.units, ∀ s ∈ v.symbol, s ≠ [] ∧ (s.all fun c => !isWs c && !reservedChars.contains c) = true) : t.PlainSymbols := by
  intro v hv s hs
  obtain ⟨h1, h2⟩ := h v hv s hs
  exact ⟨h1, fun c hc => by simpa using List.all_eq_true.1 h2 c hc⟩

theorem C77.old_good : GoodVersion ℚ exactFactor C59.old (C59.compiled C59.old) where
  accepted := C59.old_accepted
  literals := C18_literals_int _
  distinct := by decide +kernel
  hasBase := by
    intro d hd _
    simp only [C59.old, List.mem_cons, List.not_mem_nil, or_false] at hd ⊢
    rcases hd with rfl | rfl
    · exact ⟨_, .inl rfl, rfl⟩
    · exact ⟨_, .inr rfl, rfl⟩
  symbols := C77.plain (by decide +kernel)
  finite := by decide +kernel

theorem C77.new_good : GoodVersion ℚ exactFactor C59.new (C59.compiled C59.new) where
  accepted := C59.new_accepted
  literals := C18_literals_int _
  distinct := by decide +kernel
  hasBase := by
    intro d hd _
    simp only [C59.new, List.mem_cons, List.not_mem_nil, or_false] at hd ⊢
    rcases hd with rfl | rfl | rfl
    · exact ⟨_, .inl rfl, rfl⟩
    · exact ⟨_, .inr (.inl rfl), rfl⟩
    · exact ⟨_, .inr (.inr (.inr rfl)), rfl⟩
  symbols := C77.plain (by decide +kernel)
  finite := by decide +kernel

theorem C77.old_safe : TearSafe (C59.compiled C59.old) := by
  have h : ∀ U ∈ (C59.compiled C59.old).units, ∀ V ∈ (C59.compiled C59.old).units, ∀ su ∈ U.symbol, ∀ sv ∈ V.symbol,
      (!sv.isEmpty && sv.isPrefixOf su && sv != su) = false := by decide +kernel
  intro U hU V hV _ su sv hsu hsv h0 hp hne
  have := h U hU V hV su hsu sv hsv
  rw [show sv.isEmpty = false by simpa using h0, show sv.isPrefixOf su = true by simpa using hp, show (sv != su) = true by simpa using hne] at this
  cases this

/-- The acceleration m/s² of the old version. -/
def C77.acceleration : Str → ℚ := exponentAt (C59.compiled C59.old).baseDimensions ([1, -2] : DimVal Int)

/-- The store after this history: the old version writes 3/4 m/s² under the keys 0 and 1; the new version is installed; it migrates record 0 (and uses the
symbol of its new unit for that); record 1 is copied to key 2, and a crash cuts this copy short. -/
def C77.final : Archive Int ℚ ℚ Nat where
  templates := C59.new
  defs := C59.compiled C59.new
  text := Function.update (Function.update (Function.update (Function.update (Function.update (fun _ => none) 0 (some (str!"3/4 m s^-2"))) 1
    (some (str!"3/4 m s^-2"))) 0 (some (str!"3/4 acc"))) 2 (some (str!"3/4 m s^-2"))) 2 (some (str!"3/4 m s^-"))
  content := Function.update (Function.update (Function.update (Function.update (fun _ => none) 0 (some ⟨.f64, C77.acceleration, [3 / 4], false⟩)) 1
    (some ⟨.f64, C77.acceleration, [3 / 4], false⟩)) 2 (some ⟨.f64, C77.acceleration, [3 / 4], false⟩)) 2 (some ⟨.f64, C77.acceleration, [3 / 4], true⟩)

theorem C77.reachable : C77.final.Reachable exactFactor TearSafe := by
  have dOld : Denotes (C59.compiled C59.old) ([1, -2] : DimVal Int) C77.acceleration :=
    ⟨by decide +kernel, fun e he => ⟨e, by revert e; decide, rfl⟩, rfl⟩
  have dNew : Denotes (C59.compiled C59.new) ([0, 1, -2] : DimVal Int) C77.acceleration :=
    ⟨by decide +kernel, fun e he => ⟨e, by revert e; decide, rfl⟩, (funext C59.same).symm⟩
  have r0 := Archive.Reachable.start (ι := Nat) (K := ℚ) C59.old _ C77.old_good C77.old_safe
  have r1 := r0.step (.write _ 0 .f64 [1, -2] C77.acceleration [3 / 4] (str!"3/4 m s^-2") dOld rfl (fun _ _ => trivial) (by decide +kernel))
  have r2 := r1.step (.write _ 1 .f64 [1, -2] C77.acceleration [3 / 4] (str!"3/4 m s^-2") dOld rfl (fun _ _ => trivial) (by decide +kernel))
  have r3 := r2.step (.upgrade _ C59.new _ C59.extends C77.new_good C76.new_safe)
  have r4 := r3.step (.rewrite _ 0 ⟨.f64, C77.acceleration, [3 / 4], false⟩ [0, 1, -2] (str!"3/4 m s^-2") (str!"3/4 acc") [3 / 4] rfl dNew rfl
    (by decide +kernel) (by decide +kernel))
  have r5 := r4.step (.copy _ 1 2)
  exact r5.step (.tear _ 2 ⟨.f64, C77.acceleration, [3 / 4], false⟩ (str!"3/4 m s^-2") (str!"3/4 m s^-") rfl rfl (by decide) (by decide))

-- The theorems apply to this store: records 0 and 1 read as 3/4, record 2 is refused.
example : ∀ d : DimVal Int, d.length = 3 → exponentAt (C59.compiled C59.new).baseDimensions d = C77.acceleration →
    deserializeStr ℚ (C59.compiled C59.new) .f64 d (str!"3/4 acc") = some (.ok [(3 / 4 : ℚ)]) ∧
    deserializeStr ℚ (C59.compiled C59.new) .f64 d (str!"3/4 m s^-2") = some (.ok [(3 / 4 : ℚ)]) ∧
    ∀ r : Raw ℚ, deserializeStr ℚ (C59.compiled C59.new) .f64 d (str!"3/4 m s^-") ≠ some (.ok r) := by
  intro d hl hd
  have hl' : d.length = (C59.compiled C59.new).baseDimensions.length := by rw [hl]; decide +kernel
  refine ⟨?_, ?_, fun r => ?_⟩
  · obtain ⟨t, h1, h2⟩ := C77_history exactFactor TearSafe C77.final C77.reachable 0 _ rfl rfl d hl' (fun _ _ => trivial) hd
    cases h1; exact h2
  · obtain ⟨t, h1, h2⟩ := C77_history exactFactor TearSafe C77.final C77.reachable 1 _ rfl rfl d hl' (fun _ _ => trivial) hd
    cases h1; exact h2
  · exact C77_torn exactFactor C77.final C77.reachable 2 _ rfl rfl ⟨str!"length", by unfold C77.acceleration; decide +kernel⟩ d hl' (fun _ _ => trivial) hd _ rfl r
end
end Diman
