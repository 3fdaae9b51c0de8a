import Verif.Spec.Merge
import Verif.Props.C81
import Verif.Props.C10
import Verif.Props.C52
import Verif.Props.C59
import Verif.Proofs.ExpMap
/-!
# C82 Extensions that are apart can be combined
-/
set_option linter.unusedSectionVars false
namespace Diman
open LawfulExponent

section
variable {E M : Type} [Exponent E] [LawfulExponent E] [MagOps E M]

theorem List.nodup_of_overlap {α : Type} {p a b : List α} (h1 : (p ++ a).Nodup) (h2 : (p ++ b).Nodup) (h : ∀ x ∈ a, x ∉ b) : (p ++ a ++ b).Nodup := by
  rw [List.nodup_append] at h1 h2 ⊢
  refine ⟨List.nodup_append.2 h1, h2.2.1, fun x hx y hy e => ?_⟩
  subst e
  rcases List.mem_append.1 hx with hx | hx
  · exact h2.2.2 x hx x hy rfl
  · exact h x hx hy

theorem Unresolved.written_plus (t a : UnresolvedTemplates E M) : (Unresolved.plus t a).written.Perm (t.written ++ a.written) := by
  unfold Unresolved.written Unresolved.plus
  simp only [List.map_append, List.flatMap_append]
  rw [List.perm_iff_count]
  intro x
  simp only [List.count_append]
  omega

theorem Unresolved.names_plus (t a : UnresolvedTemplates E M) :
    ((Unresolved.plus t a).written.map Prod.fst).Perm (t.written.map Prod.fst ++ a.written.map Prod.fst) := by
  rw [← List.map_append]
  exact (Unresolved.written_plus t a).map _

/-- All statements of `t` are in `T`. -/
structure Unresolved.In (t T : UnresolvedTemplates E M) : Prop where
  dimensions : t.dimensions ⊆ T.dimensions
  units : t.units ⊆ T.units
  constants : t.constants ⊆ T.constants

theorem Unresolved.In.written {t T : UnresolvedTemplates E M} (h : Unresolved.In t T) : t.written ⊆ T.written := by
  intro p hp
  unfold Unresolved.written at hp ⊢
  simp only [List.mem_append, List.mem_map, List.mem_flatMap] at hp ⊢
  rcases hp with (⟨d, hd, e⟩ | ⟨v, hv, e⟩) | ⟨c, hc, e⟩
  · exact .inl (.inl ⟨d, h.dimensions hd, e⟩)
  · exact .inl (.inr ⟨v, h.units hv, e⟩)
  · exact .inr ⟨c, h.constants hc, e⟩

theorem Unresolved.In.names {t T : UnresolvedTemplates E M} (h : Unresolved.In t T) {x : Str} (hx : x ∈ t.written.map Prod.fst) : x ∈ T.written.map Prod.fst :=
  List.map_subset _ h.written hx

theorem nodup_fst_eq {α β : Type} {l : List (α × β)} (hn : (l.map Prod.fst).Nodup) {x : α} {y z : β} (hy : (x, y) ∈ l) (hz : (x, z) ∈ l) : y = z := by
  have := List.inj_on_of_nodup_map hn hy hz rfl
  simpa using this

/-- A definition of a name of `t` is one of `t`. -/
theorem Unresolved.In.back {t T : UnresolvedTemplates E M} (h : Unresolved.In t T) (hn : (T.written.map Prod.fst).Nodup) {x : Str}
    (hx : x ∈ t.written.map Prod.fst) {rs : List Str} (hw : (x, rs) ∈ T.written) : (x, rs) ∈ t.written := by
  obtain ⟨⟨x', rs'⟩, h1, rfl⟩ := List.mem_map.1 hx
  rw [nodup_fst_eq hn hw (h.written h1)]
  exact h1

theorem Unresolved.In.depends {t T : UnresolvedTemplates E M} (h : Unresolved.In t T) (hn : (T.written.map Prod.fst).Nodup)
    (hc : ∀ x rs, (x, rs) ∈ t.written → ∀ y ∈ rs, y ∈ t.written.map Prod.fst) {x y : Str} (hx : x ∈ t.written.map Prod.fst)
    (hd : DependsOn T.written x y) : DependsOn t.written x y ∧ y ∈ t.written.map Prod.fst := by
  induction hd with
  | single hm =>
    obtain ⟨rs, h1, h2⟩ := hm
    have h1' := h.back hn hx h1
    exact ⟨.single ⟨rs, h1', h2⟩, hc _ _ h1' _ h2⟩
  | tail _ hm ih =>
    obtain ⟨rs, h1, h2⟩ := hm
    have h1' := h.back hn ih.2 h1
    exact ⟨.tail ih.1 ⟨rs, h1', h2⟩, hc _ _ h1' _ h2⟩

theorem Unresolved.In.depends_mono {t T : UnresolvedTemplates E M} (h : Unresolved.In t T) {x y : Str} (hd : DependsOn t.written x y) :
    DependsOn T.written x y := by
  induction hd with
  | single hm => obtain ⟨rs, h1, h2⟩ := hm; exact .single ⟨rs, h.written h1, h2⟩
  | tail _ hm ih => obtain ⟨rs, h1, h2⟩ := hm; exact .tail ih ⟨rs, h.written h1, h2⟩

/-- A dimension of `T` with a name of `t` is one of `t`. -/
theorem Unresolved.In.dimension {t T : UnresolvedTemplates E M} (h : Unresolved.In t T) (hn : (T.written.map Prod.fst).Nodup) {d : DimensionEntry E}
    (hd : d ∈ T.dimensions) (hx : d.name ∈ t.written.map Prod.fst) : d ∈ t.dimensions := by
  rcases mem_written.1 hx with ⟨d', h1, h2⟩ | hm
  · have hnd : (T.dimensions.map DimensionEntry.name).Nodup := by
      refine hn.sublist ?_
      unfold Unresolved.written
      simp only [List.map_append, List.append_assoc, List.map_map]
      exact List.sublist_append_left _ _
    rw [List.inj_on_of_nodup_map hnd hd (h.dimensions h1) h2.symm]
    exact h1
  · exfalso
    have hM : T.Measures d.name := by
      rcases hm with ⟨v, hv, e⟩ | ⟨c, hc, e⟩
      · exact .inl ⟨v, h.units hv, e⟩
      · exact .inr ⟨c, h.constants hc, e⟩
    unfold Unresolved.written at hn
    rw [List.append_assoc, List.map_append, List.nodup_append] at hn
    refine hn.2.2 d.name ?_ d.name ?_ rfl
    · simp only [List.map_map, List.mem_map]; exact ⟨d, hd, rfl⟩
    · have := (mem_written (t := { T with dimensions := [] }) (x := d.name)).2 (.inr hM)
      simpa [Unresolved.written] using this

theorem Unresolved.In.reaches {t T : UnresolvedTemplates E M} (h : Unresolved.In t T) (hn : (T.written.map Prod.fst).Nodup)
    (hc : ∀ x rs, (x, rs) ∈ t.written → ∀ y ∈ rs, y ∈ t.written.map Prod.fst) {x k : Str} (hx : x ∈ t.written.map Prod.fst)
    (hr : T.Reaches x k) : t.Reaches x k := by
  obtain ⟨b, hb, h1, h2, h3⟩ := hr
  rcases h3 with rfl | h3
  · exact ⟨b, h.dimension hn hb hx, h1, h2, .inl rfl⟩
  · obtain ⟨h4, h5⟩ := h.depends hn hc hx h3
    exact ⟨b, h.dimension hn hb h5, h1, h2, .inr h4⟩

theorem Unresolved.In.reaches_mono {t T : UnresolvedTemplates E M} (h : Unresolved.In t T) {x k : Str} (hr : t.Reaches x k) : T.Reaches x k := by
  obtain ⟨b, hb, h1, h2, h3⟩ := hr
  exact ⟨b, h.dimensions hb, h1, h2, h3.imp_right h.depends_mono⟩

theorem Unresolved.In.balanced {t T : UnresolvedTemplates E M} (h : Unresolved.In t T) {ρ : Str → Str → ℚ} (hb : T.Balanced ρ) : t.Balanced ρ where
  baseDimension d hd := hb.baseDimension d (h.dimensions hd)
  dimension d hd := hb.dimension d (h.dimensions hd)
  baseUnit v hv := hb.baseUnit v (h.units hv)
  unit v hv := hb.unit v (h.units hv)
  variant v hv := hb.variant v (h.units hv)
  constant c hc := hb.constant c (h.constants hc)

theorem Unresolved.In.measures {t T : UnresolvedTemplates E M} (h : Unresolved.In t T) {x : Str} (hm : t.Measures x) : T.Measures x := by
  rcases hm with ⟨v, hv, e⟩ | ⟨c, hc, e⟩
  · exact .inl ⟨v, h.units hv, e⟩
  · exact .inr ⟨c, h.constants hc, e⟩

theorem Unresolved.claims_name {t : UnresolvedTemplates E M} {x a : Str} (h : t.Claims x a) : x ∈ t.written.map Prod.fst := by
  rw [mem_written]
  rcases h with ⟨v, hv, e, _⟩ | ⟨c, hc, e, _⟩
  · exact .inr (.inl ⟨v, hv, e⟩)
  · exact .inr (.inr ⟨c, hc, e⟩)

/-! ### Well-formedness -/

variable {p a b : UnresolvedTemplates E M}

theorem in_left : Unresolved.In (Unresolved.plus p a) (Unresolved.plus (Unresolved.plus p a) b) :=
  ⟨List.subset_append_left _ _, List.subset_append_left _ _, List.subset_append_left _ _⟩

theorem sub3 {α : Type} (p a b : List α) : (p ++ b).Sublist (p ++ a ++ b) := by
  rw [List.append_assoc]
  exact List.Sublist.append_left (List.sublist_append_right _ _) _

theorem in_right : Unresolved.In (Unresolved.plus p b) (Unresolved.plus (Unresolved.plus p a) b) :=
  ⟨(sub3 _ _ _).subset, (sub3 _ _ _).subset, (sub3 _ _ _).subset⟩

theorem mem3 {α : Type} {p a b : List α} {x : α} (h : x ∈ p ++ a ++ b) : x ∈ p ++ a ∨ x ∈ p ++ b := by
  simp only [List.mem_append] at h ⊢; tauto

theorem Unresolved.WellFormed.merge (common : p.quantityTypes.length = 1 ∧ p.dimensionTypes.length = 1) (w1 : (Unresolved.plus p a).WellFormed)
    (w2 : (Unresolved.plus p b).WellFormed) : (Unresolved.plus (Unresolved.plus p a) b).WellFormed ↔ Unresolved.Apart a b := by
  have split : ∀ {x}, x ∈ ((Unresolved.plus (Unresolved.plus p a) b).written.map Prod.fst) →
      x ∈ (Unresolved.plus p a).written.map Prod.fst ∨ x ∈ (Unresolved.plus p b).written.map Prod.fst := by
    intro x hx
    rw [(Unresolved.names_plus _ _).mem_iff, List.mem_append] at hx
    refine hx.imp_right fun h => ?_
    rw [(Unresolved.names_plus _ _).mem_iff, List.mem_append]
    exact .inr h
  constructor
  · intro w
    refine ⟨fun x h1 h2 => ?_, fun s h1 h2 => ?_, fun d h1 h2 => ?_⟩
    · have := (Unresolved.names_plus (Unresolved.plus p a) b).nodup_iff.1 w.names
      rw [List.nodup_append] at this
      refine this.2.2 x ?_ x h2 rfl
      rw [(Unresolved.names_plus _ _).mem_iff, List.mem_append]
      exact .inr h1
    · have := w.symbols
      unfold Unresolved.plus at this
      simp only [List.flatMap_append] at this
      rw [List.nodup_append] at this
      exact this.2.2 s (List.mem_append_right _ h1) s h2 rfl
    · have := w.oneBaseUnit
      unfold Unresolved.plus at this
      simp only [List.filterMap_append] at this
      rw [List.nodup_append] at this
      exact this.2.2 d (List.mem_append_right _ h1) d h2 rfl
  · intro h
    have names : ((Unresolved.plus (Unresolved.plus p a) b).written.map Prod.fst).Nodup := by
      rw [(Unresolved.names_plus _ _).nodup_iff]
      have e1 := (Unresolved.names_plus p a).nodup_iff.1 w1.names
      have e2 := (Unresolved.names_plus p b).nodup_iff.1 w2.names
      have := List.nodup_of_overlap e1 e2 h.names
      refine (List.Perm.append_right _ (Unresolved.names_plus p a)).nodup_iff.2 this
    have i1 := in_left (p := p) (a := a) (b := b)
    have i2 := in_right (p := p) (a := a) (b := b)
    refine ⟨?_, ?_, names, ?_, ?_, ?_, ?_, ?_, ?_, ?_, ?_⟩
    · have h1 := w1.quantityType; have h2 := w2.quantityType
      simp only [Unresolved.plus, List.length_append] at h1 h2 ⊢; omega
    · have h1 := w1.dimensionType; have h2 := w2.dimensionType
      simp only [Unresolved.plus, List.length_append] at h1 h2 ⊢; omega
    · have h1 := w1.symbols; have h2 := w2.symbols
      simp only [Unresolved.plus, List.flatMap_append] at h1 h2 ⊢
      exact List.nodup_of_overlap h1 h2 h.symbols
    · intro d hd y hy
      rcases mem3 hd with hd | hd
      · obtain ⟨d', h1, h2⟩ := w1.dimensions d hd y hy; exact ⟨d', i1.dimensions h1, h2⟩
      · obtain ⟨d', h1, h2⟩ := w2.dimensions d hd y hy; exact ⟨d', i2.dimensions h1, h2⟩
    · intro v hv e he y hy
      rcases mem3 hv with hv | hv
      · exact i1.measures (w1.units v hv e he y hy)
      · exact i2.measures (w2.units v hv e he y hy)
    · intro c hc y hy
      rcases mem3 hc with hc | hc
      · exact i1.measures (w1.constants c hc y hy)
      · exact i2.measures (w2.constants c hc y hy)
    · intro v hv d hd
      rcases mem3 hv with hv | hv
      · obtain ⟨h1, b', h2, h3⟩ := w1.baseUnits v hv d hd; exact ⟨h1, b', i1.dimensions h2, h3⟩
      · obtain ⟨h1, b', h2, h3⟩ := w2.baseUnits v hv d hd; exact ⟨h1, b', i2.dimensions h2, h3⟩
    · have h1 := w1.oneBaseUnit; have h2 := w2.oneBaseUnit
      simp only [Unresolved.plus, List.filterMap_append] at h1 h2 ⊢
      exact List.nodup_of_overlap h1 h2 h.baseUnits
    · intro x hx
      have hx' : x ∈ (Unresolved.plus (Unresolved.plus p a) b).written.map Prod.fst := by
        obtain ⟨y, ⟨rs, h1, _⟩, _⟩ := Relation.TransGen.head'_iff.1 hx
        exact List.mem_map.2 ⟨_, h1, rfl⟩
      rcases split hx' with h1 | h1
      · exact w1.acyclic x (i1.depends names w1.defined h1 hx).1
      · exact w2.acyclic x (i2.depends names w2.defined h1 hx).1
    · intro x n hc
      have go : ∀ {t : UnresolvedTemplates E M} (w : t.WellFormed) (i : Unresolved.In t (Unresolved.plus (Unresolved.plus p a) b)), t.Claims x n →
          (∃ d ∈ (Unresolved.plus (Unresolved.plus p a) b).dimensions, d.name = n) ∧ ∀ k, (Unresolved.plus (Unresolved.plus p a) b).Reaches n k →
            (Unresolved.plus (Unresolved.plus p a) b).Reaches x k ∧ ∀ ρ, (Unresolved.plus (Unresolved.plus p a) b).Balanced ρ → ρ x k = ρ n k := by
        intro t w i hc
        obtain ⟨⟨d, hd, rfl⟩, h2⟩ := w.annotations x n hc
        refine ⟨⟨d, i.dimensions hd, rfl⟩, fun k hk => ?_⟩
        obtain ⟨h3, h4⟩ := h2 k (i.reaches names w.defined (mem_written.2 (.inl ⟨d, hd, rfl⟩)) hk)
        exact ⟨i.reaches_mono h3, fun ρ hρ => h4 ρ (i.balanced hρ)⟩
      rcases hc with ⟨v, hv, e, ha⟩ | ⟨c, hc, e, ha⟩
      · rcases mem3 hv with hv | hv
        · exact go w1 i1 (.inl ⟨v, hv, e, ha⟩)
        · exact go w2 i2 (.inl ⟨v, hv, e, ha⟩)
      · rcases mem3 hc with hc | hc
        · exact go w1 i1 (.inr ⟨c, hc, e, ha⟩)
        · exact go w2 i2 (.inr ⟨c, hc, e, ha⟩)

/-! ### The runs -/

theorem expr_expo_of {C : Type} {e : Expr (Atom C) E} {ρ ρ' : Str → Str → ℚ} (h : ∀ y ∈ e.idents, ∀ k, ρ y k = ρ' y k) (k : Str) :
    e.specExpo (Atom.expo ρ) k = e.specExpo (Atom.expo ρ') k := by
  have := Expr.specExpo_congr (id : Atom C → Atom C) (Atom.expo ρ) (Atom.expo ρ') k e fun a ha => by
    cases a with
    | concrete c => rfl
    | other x =>
      refine h x ?_ k
      rw [Expr.idents_eq_vals]
      exact List.mem_filterMap.2 ⟨_, ha, rfl⟩
  rwa [Expr.map_id] at this

theorem expr_fits_of {C : Type} {e : Expr (Atom C) Int} {ρ ρ' : Str → Str → ℚ} (h : ∀ y ∈ e.idents, ∀ k, ρ y k = ρ' y k) :
    e.Fits (Atom.expo ρ) ↔ e.Fits (Atom.expo ρ') := by
  have := Expr.fits_congr (id : Atom C → Atom C) (Atom.expo ρ) (Atom.expo ρ') e fun a ha k => by
    cases a with
    | concrete c => rfl
    | other x =>
      refine h x ?_ k
      rw [Expr.idents_eq_vals]
      exact List.mem_filterMap.2 ⟨_, ha, rfl⟩
  rwa [Expr.map_id] at this

theorem Unresolved.Balanced.of_agree {t : UnresolvedTemplates E M} (w : t.WellFormed) {ρ ρ' : Str → Str → ℚ} (hb : t.Balanced ρ')
    (h : ∀ x ∈ t.written.map Prod.fst, ∀ k, ρ x k = ρ' x k) : t.Balanced ρ where
  baseDimension d hd e k := by rw [h _ (mem_written.2 (.inl ⟨d, hd, rfl⟩)), hb.baseDimension d hd e]
  dimension d hd e he k := by
    rw [h _ (mem_written.2 (.inl ⟨d, hd, rfl⟩)), hb.dimension d hd e he]
    refine (expr_expo_of (fun y hy k => h y ?_ k) k).symm
    obtain ⟨d', h1, h2⟩ := w.dimensions d hd y (by rw [DimensionEntry.mentions, he]; exact hy)
    exact mem_written.2 (.inl ⟨d', h1, h2⟩)
  baseUnit v hv d hd k := by
    obtain ⟨_, b, h1, h2, _⟩ := w.baseUnits v hv d hd
    rw [h _ (mem_written.2 (.inr (.inl ⟨v, hv, .inl rfl⟩))), hb.baseUnit v hv d hd, h d (mem_written.2 (.inl ⟨b, h1, h2⟩))]
  unit v hv e he k := by
    rw [h _ (mem_written.2 (.inr (.inl ⟨v, hv, .inl rfl⟩))), hb.unit v hv e he]
    exact (expr_expo_of (fun y hy k => h y (mem_written.2 (.inr (w.units v hv e he y hy))) k) k).symm
  variant v hv n hn k := by
    rw [h _ (mem_written.2 (.inr (.inl ⟨v, hv, .inr hn⟩))), hb.variant v hv n hn, h _ (mem_written.2 (.inr (.inl ⟨v, hv, .inl rfl⟩)))]
  constant c hc k := by
    rw [h _ (mem_written.2 (.inr (.inr ⟨c, hc, rfl⟩))), hb.constant c hc]
    exact (expr_expo_of (fun y hy k => h y (mem_written.2 (.inr (w.constants c hc y hy))) k) k).symm

theorem Unresolved.Fits.of_agree {M : Type} [MagOps Int M] {t : UnresolvedTemplates Int M} (w : t.WellFormed) {ρ ρ' : Str → Str → ℚ} (hb : t.Fits ρ')
    (h : ∀ x ∈ t.written.map Prod.fst, ∀ k, ρ x k = ρ' x k) : t.Fits ρ where
  dimension d hd e he := by
    refine (expr_fits_of (fun y hy k => h y ?_ k)).2 (hb.dimension d hd e he)
    obtain ⟨d', h1, h2⟩ := w.dimensions d hd y (by rw [DimensionEntry.mentions, he]; exact hy)
    exact mem_written.2 (.inl ⟨d', h1, h2⟩)
  unit v hv e he :=
    (expr_fits_of (fun y hy k => h y (mem_written.2 (.inr (w.units v hv e he y hy))) k)).2 (hb.unit v hv e he)
  constant c hc :=
    (expr_fits_of (fun y hy k => h y (mem_written.2 (.inr (w.constants c hc y hy))) k)).2 (hb.constant c hc)

/-- What both know, they have from the common part. -/
theorem common_name (h : Unresolved.Apart a b) {x : Str} (h1 : x ∈ (Unresolved.plus p a).written.map Prod.fst)
    (h2 : x ∈ (Unresolved.plus p b).written.map Prod.fst) : x ∈ p.written.map Prod.fst := by
  rw [(Unresolved.names_plus _ _).mem_iff, List.mem_append] at h1 h2
  rcases h1 with h1 | h1
  · exact h1
  · rcases h2 with h2 | h2
    · exact h2
    · exact absurd h2 (h.names x h1)

theorem in_common : Unresolved.In p (Unresolved.plus p a) :=
  ⟨List.subset_append_left _ _, List.subset_append_left _ _, List.subset_append_left _ _⟩

/-- **C82.** Two unit systems extend a common one, by the statements `a` and by the statements `b`. Then all statements together are a unit system, accepted by the
macro, if and only if the extensions are apart: no name, no symbol and no base unit twice. Nothing else can go wrong: no cycle, no clash of kinds, no violated
annotation. (On runs without overflow; the next theorem.) -/
theorem C82_merge (factor : Prefix → M) (p a b : UnresolvedTemplates E M) (common : p.quantityTypes.length = 1 ∧ p.dimensionTypes.length = 1)
    (defs₁ defs₂ defs : Defs E M) (ds : List Diag) (accepted₁ : runUnitSystem factor (Unresolved.plus p a) = some (defs₁, []))
    (accepted₂ : runUnitSystem factor (Unresolved.plus p b) = some (defs₂, []))
    (run : runUnitSystem factor (Unresolved.plus (Unresolved.plus p a) b) = some (defs, ds))
    (canonical : (Unresolved.plus (Unresolved.plus p a) b).CanonicalExponents) : ds = [] ↔ Unresolved.Apart a b := by
  have part : ∀ {t : UnresolvedTemplates E M}, Unresolved.In t (Unresolved.plus (Unresolved.plus p a) b) → t.CanonicalExponents := fun i =>
    ⟨fun d hd => canonical.1 d (i.dimensions hd), fun d hd => canonical.2.1 d (i.units hd), fun d hd => canonical.2.2 d (i.constants hd)⟩
  exact (C80_accepted_iff factor _ defs ds run canonical).trans (Unresolved.WellFormed.merge common
    ((C80_accepted_iff factor _ defs₁ [] accepted₁ (part in_left)).1 rfl) ((C80_accepted_iff factor _ defs₂ [] accepted₂ (part in_right)).1 rfl))

/-- **C82, integer exponents.** Overflow cannot happen either. -/
theorem C82_merge_int {M : Type} [MagOps Int M] (factor : Prefix → M) (p a b : UnresolvedTemplates Int M)
    (common : p.quantityTypes.length = 1 ∧ p.dimensionTypes.length = 1)
    (accepted₁ : ∃ defs, runUnitSystem factor (Unresolved.plus p a) = some (defs, [])) (accepted₂ : ∃ defs, runUnitSystem factor (Unresolved.plus p b) = some (defs, [])) :
    (∃ defs, runUnitSystem factor (Unresolved.plus (Unresolved.plus p a) b) = some (defs, [])) ↔ Unresolved.Apart a b := by
  obtain ⟨w1, ρ₁, b1, f1⟩ := (C80_exactly factor _).1 accepted₁
  obtain ⟨w2, ρ₂, b2, f2⟩ := (C80_exactly factor _).1 accepted₂
  rw [C80_exactly]
  refine ⟨fun h => (Unresolved.WellFormed.merge common w1 w2).1 h.1, fun h => ⟨(Unresolved.WellFormed.merge common w1 w2).2 h, ?_⟩⟩
  -- the common part
  obtain ⟨defs₁, run₁⟩ := accepted₁
  have innocent : Innocent (Unresolved.plus p a) p [] := by
    refine ⟨(List.sublist_append_left _ _).subperm, (List.sublist_append_left _ _).subperm, (List.sublist_append_left _ _).subperm, common.1, common.2,
      fun x rs hx y hy => ?_, fun x n hc => ?_, by simp, by simp⟩
    · exact common_name h (w1.defined x rs (in_common.written hx) y hy) (w2.defined x rs (in_common.written hx) y hy)
    · have lift : ∀ {t : UnresolvedTemplates Int M}, Unresolved.In p t → t.Claims x n := fun i => by
        rcases hc with ⟨v, hv, e⟩ | ⟨c, hc, e⟩
        · exact .inl ⟨v, i.units hv, e⟩
        · exact .inr ⟨c, i.constants hc, e⟩
      exact common_name h (mem_written.2 (.inl (w1.annotations x n (lift in_common)).1)) (mem_written.2 (.inl (w2.annotations x n (lift in_common)).1))
  have wp : p.WellFormed := C81_wellFormed factor _ p defs₁ [] run₁ innocent (canonicalExponents_int p)
  have agree : ∀ x ∈ p.written.map Prod.fst, ∀ k, ρ₁ x k = ρ₂ x k := fun x hx k =>
    C80_unique p wp ρ₁ ρ₂ (in_common.balanced b1) (in_common.balanced b2) x k hx
  classical
  let ρ : Str → Str → ℚ := fun x k => if x ∈ (Unresolved.plus p a).written.map Prod.fst then ρ₁ x k else ρ₂ x k
  have e1 : ∀ x ∈ (Unresolved.plus p a).written.map Prod.fst, ∀ k, ρ x k = ρ₁ x k := fun x hx k => if_pos hx
  have e2 : ∀ x ∈ (Unresolved.plus p b).written.map Prod.fst, ∀ k, ρ x k = ρ₂ x k := fun x hx k => by
    by_cases h1 : x ∈ (Unresolved.plus p a).written.map Prod.fst
    · rw [e1 x h1, agree x (common_name h h1 hx)]
    · exact if_neg h1
  have B1 := b1.of_agree w1 e1
  have B2 := b2.of_agree w2 e2
  have F1 := f1.of_agree w1 e1
  have F2 := f2.of_agree w2 e2
  refine ⟨ρ, ⟨fun d hd => ?_, fun d hd => ?_, fun d hd => ?_, fun d hd => ?_, fun d hd => ?_, fun d hd => ?_⟩, ⟨fun d hd => ?_, fun d hd => ?_, fun d hd => ?_⟩⟩
  all_goals rcases mem3 hd with hd | hd
  · exact B1.baseDimension d hd
  · exact B2.baseDimension d hd
  · exact B1.dimension d hd
  · exact B2.dimension d hd
  · exact B1.baseUnit d hd
  · exact B2.baseUnit d hd
  · exact B1.unit d hd
  · exact B2.unit d hd
  · exact B1.variant d hd
  · exact B2.variant d hd
  · exact B1.constant d hd
  · exact B2.constant d hd
  · exact F1.dimension d hd
  · exact F2.dimension d hd
  · exact F1.unit d hd
  · exact F2.unit d hd
  · exact F1.constant d hd
  · exact F2.constant d hd

/-- **C82, what is generated.** The combined unit system has exactly the dimensions, units and constants of the two, with the same exponents, conversion factors and
symbols. -/
theorem C82_items (factor : Prefix → M) (p a b : UnresolvedTemplates E M) (common : p.quantityTypes.length = 1 ∧ p.dimensionTypes.length = 1)
    (defs₁ defs₂ defs : Defs E M) (accepted₁ : runUnitSystem factor (Unresolved.plus p a) = some (defs₁, []))
    (accepted₂ : runUnitSystem factor (Unresolved.plus p b) = some (defs₂, []))
    (accepted : runUnitSystem factor (Unresolved.plus (Unresolved.plus p a) b) = some (defs, [])) :
    (∀ D, D ∈ defs.dimensions ↔ D ∈ defs₁.dimensions ∨ D ∈ defs₂.dimensions) ∧ (∀ U, U ∈ defs.units ↔ U ∈ defs₁.units ∨ U ∈ defs₂.units) ∧
      (∀ C, C ∈ defs.constants ↔ C ∈ defs₁.constants ∨ C ∈ defs₂.constants) := by
  have one : ∀ {t : UnresolvedTemplates E M} {D : Defs E M}, runUnitSystem factor t = some (D, []) → t.quantityTypes.length = 1 ∧ t.dimensionTypes.length = 1 := by
    intro t D h
    obtain ⟨res, h⟩ := accepted_of_run h
    exact ⟨congrArg List.length h.quantity, congrArg List.length h.dimension⟩
  have empty : (a.quantityTypes = [] ∧ a.dimensionTypes = []) ∧ b.quantityTypes = [] ∧ b.dimensionTypes = [] := by
    have h1 := one accepted₁; have h2 := one accepted₂
    simp only [Unresolved.plus, List.length_append] at h1 h2
    simp only [← List.length_eq_zero_iff]
    omega
  have x1 : Extends (Unresolved.plus p a) (Unresolved.plus (Unresolved.plus p a) b) :=
    ⟨by simp [Unresolved.plus, empty], by simp [Unresolved.plus, empty], (List.sublist_append_left _ _).subperm, (List.sublist_append_left _ _).subperm,
      (List.sublist_append_left _ _).subperm⟩
  have x2 : Extends (Unresolved.plus p b) (Unresolved.plus (Unresolved.plus p a) b) :=
    ⟨by simp [Unresolved.plus, empty], by simp [Unresolved.plus, empty], (sub3 _ _ _).subperm, (sub3 _ _ _).subperm, (sub3 _ _ _).subperm⟩
  obtain ⟨d1, u1, c1, -⟩ := C52_extension factor _ _ x1 defs₁ defs accepted₁ accepted
  obtain ⟨d2, u2, c2, -⟩ := C52_extension factor _ _ x2 defs₂ defs accepted₂ accepted
  obtain ⟨nd, nu, nc, nn⟩ := C10_complete factor _ defs accepted
  obtain ⟨nd1, nu1, nc1, -⟩ := C10_complete factor _ defs₁ accepted₁
  obtain ⟨nd2, nu2, nc2, -⟩ := C10_complete factor _ defs₂ accepted₂
  simp only [Defs.names, List.nodup_append] at nn
  refine ⟨fun D => ⟨fun hD => ?_, fun h => h.elim (d1 D) (d2 D)⟩, fun D => ⟨fun hD => ?_, fun h => h.elim (u1 D) (u2 D)⟩,
    fun D => ⟨fun hD => ?_, fun h => h.elim (c1 D) (c2 D)⟩⟩
  · have := nd.mem_iff.1 (List.mem_map_of_mem hD)
    simp only [Unresolved.plus, List.map_append] at this
    rcases mem3 this with h | h
    · rw [← List.map_append] at h
      obtain ⟨D', h1, h2⟩ := List.mem_map.1 (nd1.mem_iff.2 h)
      left; rwa [List.inj_on_of_nodup_map nn.1.1 hD (d1 _ h1) h2.symm]
    · rw [← List.map_append] at h
      obtain ⟨D', h1, h2⟩ := List.mem_map.1 (nd2.mem_iff.2 h)
      right; rwa [List.inj_on_of_nodup_map nn.1.1 hD (d2 _ h1) h2.symm]
  · have := nu.mem_iff.1 (List.mem_map_of_mem hD)
    simp only [Unresolved.plus, List.flatMap_append] at this
    rcases mem3 this with h | h
    · rw [← List.flatMap_append] at h
      obtain ⟨D', h1, h2⟩ := List.mem_map.1 (nu1.mem_iff.2 h)
      left; rwa [List.inj_on_of_nodup_map nn.1.2.1 hD (u1 _ h1) (congrArg Prod.fst h2).symm]
    · rw [← List.flatMap_append] at h
      obtain ⟨D', h1, h2⟩ := List.mem_map.1 (nu2.mem_iff.2 h)
      right; rwa [List.inj_on_of_nodup_map nn.1.2.1 hD (u2 _ h1) (congrArg Prod.fst h2).symm]
  · have := nc.mem_iff.1 (List.mem_map_of_mem hD)
    simp only [Unresolved.plus, List.map_append] at this
    rcases mem3 this with h | h
    · rw [← List.map_append] at h
      obtain ⟨D', h1, h2⟩ := List.mem_map.1 (nc1.mem_iff.2 h)
      left; rwa [List.inj_on_of_nodup_map nn.2.1 hD (c1 _ h1) h2.symm]
    · rw [← List.map_append] at h
      obtain ⟨D', h1, h2⟩ := List.mem_map.1 (nc2.mem_iff.2 h)
      right; rwa [List.inj_on_of_nodup_map nn.2.1 hD (c2 _ h1) h2.symm]

/-! ### Any number of extensions -/

/-- All statements of a list of extensions. -/
def Unresolved.total (l : List (UnresolvedTemplates E M)) : UnresolvedTemplates E M where
  dimensionTypes := l.flatMap (·.dimensionTypes)
  quantityTypes := l.flatMap (·.quantityTypes)
  dimensions := l.flatMap (·.dimensions)
  units := l.flatMap (·.units)
  constants := l.flatMap (·.constants)

theorem Unresolved.foldl_plus (p : UnresolvedTemplates E M) (l : List (UnresolvedTemplates E M)) :
    l.foldl Unresolved.plus p = Unresolved.plus p (Unresolved.total l) := by
  induction l generalizing p with
  | nil => simp [Unresolved.plus, Unresolved.total]
  | cons a l ih => rw [List.foldl_cons, ih]; simp [Unresolved.plus, Unresolved.total]

theorem Unresolved.total_names (l : List (UnresolvedTemplates E M)) :
    ((Unresolved.total l).written.map Prod.fst).Perm (l.flatMap fun a => a.written.map Prod.fst) := by
  induction l with
  | nil => exact List.Perm.refl _
  | cons a l ih =>
    have : Unresolved.total (a :: l) = Unresolved.plus a (Unresolved.total l) := by simp [Unresolved.plus, Unresolved.total]
    rw [this, List.flatMap_cons]
    exact (Unresolved.names_plus _ _).trans (List.Perm.append_left _ ih)

theorem Unresolved.WellFormed.apart {p : UnresolvedTemplates E M} {l : List (UnresolvedTemplates E M)}
    (w : (Unresolved.plus p (Unresolved.total l)).WellFormed) : l.Pairwise Unresolved.Apart := by
  have n := w.names
  rw [((Unresolved.names_plus _ _).trans (List.Perm.append_left _ (Unresolved.total_names l))).nodup_iff, List.nodup_append] at n
  have s := w.symbols
  simp only [Unresolved.plus, Unresolved.total, List.flatMap_append, List.nodup_append, List.flatMap_assoc] at s
  have u := w.oneBaseUnit
  simp only [Unresolved.plus, Unresolved.total, List.filterMap_append, List.nodup_append, List.filterMap_flatMap] at u
  have n2 := (List.nodup_flatMap.1 n.2.1).2
  have s2 := (List.nodup_flatMap.1 s.2.1).2
  have u2 := (List.nodup_flatMap.1 u.2.1).2
  exact (n2.and (s2.and u2)).imp fun h => ⟨fun x h1 h2 => h.1 h1 h2, fun x h1 h2 => h.2.1 h1 h2, fun x h1 h2 => h.2.2 h1 h2⟩

theorem Unresolved.Apart.total {l : List (UnresolvedTemplates E M)} {b : UnresolvedTemplates E M} (h : ∀ a ∈ l, Unresolved.Apart a b) :
    Unresolved.Apart (Unresolved.total l) b := by
  refine ⟨fun x hx => ?_, fun s hs => ?_, fun d hd => ?_⟩
  · rw [(Unresolved.total_names l).mem_iff, List.mem_flatMap] at hx
    obtain ⟨a, ha, hx⟩ := hx
    exact (h a ha).names x hx
  · simp only [Unresolved.total, List.flatMap_assoc] at hs
    obtain ⟨a, ha, hs⟩ := List.mem_flatMap.1 hs
    exact (h a ha).symbols s hs
  · simp only [Unresolved.total, List.filterMap_flatMap] at hd
    obtain ⟨a, ha, hd⟩ := List.mem_flatMap.1 hd
    exact (h a ha).baseUnits d hd

/-- **C82, any number.** A unit system and any number of extensions of it, each of which is accepted with it: all of them together are accepted if and only if no two of
them share a name, a symbol or a base unit. -/
theorem C82_all {M : Type} [MagOps Int M] (factor : Prefix → M) (p : UnresolvedTemplates Int M) (extensions : List (UnresolvedTemplates Int M))
    (accepted : ∃ defs, runUnitSystem factor p = some (defs, []))
    (each : ∀ a ∈ extensions, ∃ defs, runUnitSystem factor (Unresolved.plus p a) = some (defs, [])) :
    (∃ defs, runUnitSystem factor (extensions.foldl Unresolved.plus p) = some (defs, [])) ↔ extensions.Pairwise Unresolved.Apart := by
  have common : p.quantityTypes.length = 1 ∧ p.dimensionTypes.length = 1 := by
    obtain ⟨w, -⟩ := (C80_exactly factor p).1 accepted
    exact ⟨w.quantityType, w.dimensionType⟩
  constructor
  · intro h
    rw [Unresolved.foldl_plus] at h
    exact ((C80_exactly factor _).1 h).1.apart
  · intro h
    induction extensions using List.reverseRecOn with
    | nil => exact accepted
    | append_singleton l a ih =>
      rw [List.pairwise_append] at h
      have h1 := ih (fun a ha => each a (by simp [ha])) h.1
      rw [List.foldl_append, List.foldl_cons, List.foldl_nil]
      rw [Unresolved.foldl_plus] at h1 ⊢
      exact (C82_merge_int factor p _ a common h1 (each a (by simp))).2 (Unresolved.Apart.total fun x hx => h.2.2 x hx a (by simp))

end

/-! ### The hypotheses are met -/
section
attribute [local instance] Sample.exactMag
open Sample

/-- Lengths and times. -/
def C82.core : UnresolvedTemplates Int ℚ where
  quantityTypes := [str!"Quantity"]
  dimensionTypes := [str!"Dimension"]
  dimensions := [⟨str!"Length", .base ()⟩, ⟨str!"Time", .base ()⟩]
  units := [baseUnit (str!"meters") (str!"m") (str!"Length") [.kilo], baseUnit (str!"seconds") (str!"s") (str!"Time") []]
  constants := []

/-- Masses and forces. -/
def C82.mechanics : UnresolvedTemplates Int ℚ where
  quantityTypes := []
  dimensionTypes := []
  dimensions := [⟨str!"Mass", .base ()⟩]
  units := [baseUnit (str!"kilograms") (str!"kg") (str!"Mass") [],
    unit (str!"newtons") (.binary (.binary (.value (v (str!"kilograms"))) .mul (v (str!"meters"))) .div (pw (str!"seconds") 2)) (some (str!"N"))]
  constants := []

/-- Speeds in knots. -/
def C82.navigation : UnresolvedTemplates Int ℚ where
  quantityTypes := []
  dimensionTypes := []
  dimensions := [⟨str!"Speed", .expression (.binary (.value (v (str!"Length"))) .div (v (str!"Time")))⟩]
  units := [unit (str!"knots") (.binary (.value (v (str!"meters"))) .div (v (str!"seconds"))) (some (str!"kn"))]
  constants := []

/-- Speeds once more, with another unit. -/
def C82.traffic : UnresolvedTemplates Int ℚ where
  quantityTypes := []
  dimensionTypes := []
  dimensions := [⟨str!"Speed", .expression (.binary (.value (v (str!"Length"))) .div (v (str!"Time")))⟩]
  units := [unit (str!"kmh") (.binary (.value (v (str!"kilometers"))) .div (v (str!"seconds"))) none]
  constants := []

theorem C82.core_run : runUnitSystem exactFactor C82.core = some (C59.compiled C82.core, []) := C59.run (by decide +kernel)
theorem C82.each_run : ∀ a ∈ [C82.mechanics, C82.navigation, C82.traffic], ∃ defs, runUnitSystem exactFactor (Unresolved.plus C82.core a) = some (defs, []) := by
  intro a ha
  refine ⟨C59.compiled (Unresolved.plus C82.core a), C59.run ?_⟩
  simp only [List.mem_cons, List.not_mem_nil, or_false] at ha
  rcases ha with rfl | rfl | rfl <;> decide +kernel

-- Mechanics and navigation go together, navigation and traffic do not.
example : (∃ defs, runUnitSystem exactFactor ([C82.mechanics, C82.navigation].foldl Unresolved.plus C82.core) = some (defs, [])) ∧
    ¬ ∃ defs, runUnitSystem exactFactor ([C82.navigation, C82.traffic].foldl Unresolved.plus C82.core) = some (defs, []) := by
  constructor
  · refine (C82_all exactFactor C82.core _ ⟨_, C82.core_run⟩ fun a ha => C82.each_run a (by simp at ha ⊢; tauto)).2 ?_
    simp only [List.pairwise_cons, List.mem_cons, List.not_mem_nil, or_false, forall_eq, List.Pairwise.nil, and_true, false_implies, implies_true]
    exact ⟨by decide +kernel, by decide +kernel, by decide +kernel⟩
  · rw [C82_all exactFactor C82.core _ ⟨_, C82.core_run⟩ fun a ha => C82.each_run a (by simp at ha ⊢; tauto)]
    intro h
    have := (List.pairwise_cons.1 h).1 C82.traffic (by simp)
    exact this.names (str!"Speed") (by decide +kernel) (by decide +kernel)

end
end Diman
