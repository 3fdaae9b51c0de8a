import Verif.Proofs.TextStr
import Verif.Props.C18
/-!
# Lemmas about the unit table, Debug output and deserialisation
-/
set_option linter.unusedSectionVars false
namespace Diman
open LawfulExponent

/-- Unit symbols are single words (Rust identifiers). -/
def UnresolvedTemplates.PlainSymbols {E M : Type} (t : UnresolvedTemplates E M) : Prop :=
  ∀ v ∈ t.units, ∀ s, v.symbol = some s → PlainText s

section
variable {E K M : Type} [Exponent E] [LawfulExponent E] [FieldOps E] [LawfulFieldOps E] [WrittenExponent E] [MagOps E M]

theorem good_of_literals {u : UnresolvedDefs E M} (hl : u.LitExponents (WrittenExponent.Ok : E → Prop)) : u.GoodExponents := by
  have mono : ∀ {T : Type}, (∀ e : Expr T E, e.AllExp (WrittenExponent.Ok : E → Prop) → e.AllExp LawfulExponent.Good) := by
    intro T e
    refine Expr.rec (motive_1 := fun e => e.AllExp (WrittenExponent.Ok : E → Prop) → e.AllExp LawfulExponent.Good)
      (motive_2 := fun f => f.AllExp (WrittenExponent.Ok : E → Prop) → f.AllExp LawfulExponent.Good) ?_ ?_ ?_ ?_ ?_ e
    · intro f ih; exact ih
    · intro l o r il ir h; exact ⟨il h.1, ir h.2⟩
    · intro v _; trivial
    · intro v p h; exact LawfulExponent.canon_good (WrittenExponent.ok_canon h)
    · intro e ih; exact ih
  have mono2 : ∀ {B C : Type} (x : Definition E B C), x.AllExp (WrittenExponent.Ok : E → Prop) → x.AllExp LawfulExponent.Good := by
    intro B C x hx
    cases x with
    | base _ => trivial
    | expression e => exact mono e hx
  exact ⟨fun d hd => mono2 _ (hl.1 d hd), fun x hx => mono2 _ (hl.2.1 x hx), fun c hc => mono _ (hl.2.2 c hc)⟩

theorem UnitPowers.expo_cons (u : UnitDef E M) (e : Int) (us : UnitPowers E M) (k : Str) :
    UnitPowers.expo ((u, e) :: us) k = (e : ℚ) * u.dims.expo k + UnitPowers.expo us k := by simp [UnitPowers.expo]

theorem Prefix.short_plain (p : Prefix) : PlainText p.short := by
  constructor
  · cases p <;> decide
  · cases p <;> decide

/-- In an accepted system with identifier symbols, the symbol of every generated unit is a single word. -/
theorem symbols_plain {factor : Prefix → M} {t : UnresolvedTemplates E M} {defs : Defs E M} {res : BMap (ResolvedItem E M)}
    (h : Accepted (UnresolvedTemplates.expand (MagOps.one E) factor t) defs res) (hp : t.PlainSymbols) {U : UnitDef E M}
    (hU : U ∈ defs.units) {s : Str} (hs : U.symbol = some s) : PlainText s := by
  obtain ⟨x, hx, dm, _, rfl⟩ := h.unit_from hU
  simp only [UnresolvedTemplates.expand, List.mem_flatMap] at hx
  obtain ⟨v, hv, hxv⟩ := hx
  obtain ⟨pre, al, _, _, rfl⟩ := UnitTemplate.mem_expand.1 hxv
  have hs' : v.formatSymbol pre al = some s := hs
  unfold UnitTemplate.formatSymbol at hs'
  cases al with
  | some a => simp at hs'
  | none =>
    cases pre with
    | none => exact hp v hv s (by simpa using hs')
    | some p =>
      simp only [Option.isSome_none, Bool.false_eq_true, if_false, Option.map_eq_some_iff] at hs'
      obtain ⟨s0, h0, rfl⟩ := hs'
      have h1 := hp v hv s0 h0
      have h2 := p.short_plain
      exact ⟨by simp [h1.1], fun c hc => (List.mem_append.1 hc).elim (h2.2 c) (h1.2 c)⟩

/-- In an accepted system a symbol belongs to one unit only. -/
theorem symbol_unique {u : UnresolvedDefs E M} {defs : Defs E M} {res : BMap (ResolvedItem E M)} (h : Accepted u defs res)
    {U V : UnitDef E M} (hU : U ∈ defs.units) (hV : V ∈ defs.units) {s : Str} (hs : U.symbol = some s) (hs' : V.symbol = some s) :
    U = V := by
  obtain ⟨x, hx, dm, g, rfl⟩ := h.unit_from hU
  obtain ⟨y, hy, dm', g', rfl⟩ := h.unit_from hV
  have key : ∀ (l : List (UnitEntry E M)), (l.filterMap UnitEntry.symbol).Nodup → x ∈ l → y ∈ l → x = y := by
    intro l
    induction l with
    | nil => intro _ hx; simp at hx
    | cons z zs ih =>
      intro hn hx hy
      have hmem : ∀ w, w ∈ zs → w.symbol = some s → s ∈ zs.filterMap UnitEntry.symbol := fun w hw hws => List.mem_filterMap.2 ⟨w, hw, hws⟩
      have hxs : x.symbol = some s := hs
      have hys : y.symbol = some s := hs'
      rw [List.filterMap_cons] at hn
      rcases List.mem_cons.1 hx with rfl | hx' <;> rcases List.mem_cons.1 hy with rfl | hy'
      · rfl
      · rw [hxs] at hn; exact absurd (hmem y hy' hys) (List.nodup_cons.1 hn).1
      · rw [hys] at hn; exact absurd (hmem x hx' hxs) (List.nodup_cons.1 hn).1
      · refine ih ?_ hx' hy'
        cases hz : z.symbol with
        | none => simpa [hz] using hn
        | some z0 => rw [hz] at hn; exact (List.nodup_cons.1 hn).2
  have hxy := key u.units h.symbols hx hy
  subst hxy
  rw [g] at g'
  have := congrArg (Option.map ResolvedItem.dimensions) g'
  simp only [Option.map_some, Option.some.injEq] at this
  rw [this]

variable [Prims K M] [TextPrims K M]

/-- A table entry describes a unit. -/
def TableUnit.Of (bd : List Str) (u : UnitDef E M) (tu : TableUnit E K) : Prop :=
  u.symbol = some tu.symbol ∧ dimensionExpr bd u.dims = some tu.dimension ∧ tu.magnitude = Prims.into .f64 u.mag

theorem unitTable_spec {bd : List Str} {units : List (UnitDef E M)} {tbl : List (TableUnit E K)} (h : unitTable M bd units = some tbl) :
    (∀ tu ∈ tbl, ∃ u ∈ units, tu.Of bd u) ∧ (∀ u ∈ units, ∀ s, u.symbol = some s → ∃ tu ∈ tbl, tu.Of bd u) := by
  have hF := mapM_option_some h
  have hrel : ∀ su : Str × UnitDef E M, ∀ tu : TableUnit E K, (do
      let d ← dimensionExpr bd su.2.dims
      let m : K := Prims.into .f64 su.2.mag
      if TextPrims.finite M m then some ⟨su.1, d, m⟩ else none : Option (TableUnit E K)) = some tu →
      tu.symbol = su.1 ∧ dimensionExpr bd su.2.dims = some tu.dimension ∧ tu.magnitude = Prims.into .f64 su.2.mag := by
    intro su tu h
    rw [bindM_eq_some] at h
    obtain ⟨d, hd, h⟩ := h
    simp only at h
    split at h
    · simp only [Option.some.injEq] at h
      subst h
      exact ⟨rfl, hd, rfl⟩
    · cases h
  constructor
  · intro tu htu
    obtain ⟨su, hsu, hf⟩ := forall₂_mem_right hF htu
    obtain ⟨h1, h2, h3⟩ := hrel su tu hf
    simp only [List.mem_filterMap, Option.map_eq_some_iff] at hsu
    obtain ⟨u, hu, s, hs, rfl⟩ := hsu
    exact ⟨u, hu, by rw [h1]; exact hs, h2, h3⟩
  · intro u hu s hs
    have hmem : (s, u) ∈ units.filterMap fun u => u.symbol.map fun s => (s, u) :=
      List.mem_filterMap.2 ⟨u, hu, by rw [hs]; rfl⟩
    obtain ⟨tu, htu, hf⟩ := forall₂_mem_left hF hmem
    obtain ⟨h1, h2, h3⟩ := hrel (s, u) tu hf
    exact ⟨tu, htu, by rw [h1]; exact hs, h2, h3⟩

theorem unitTable_isSome {bd : List Str} {units : List (UnitDef E M)} (hd : ∀ u ∈ units, ∃ d : DimVal E, dimensionExpr bd u.dims = some d)
    (hf : ∀ u ∈ units, u.symbol.isSome → TextPrims.finite M (Prims.into .f64 u.mag : K) = true) :
    ∃ tbl : List (TableUnit E K), unitTable M bd units = some tbl := by
  rw [← Option.isSome_iff_exists]
  unfold unitTable
  apply mapM_option_isSome
  intro su hsu
  simp only [List.mem_filterMap, Option.map_eq_some_iff] at hsu
  obtain ⟨u, hu, s, hs, rfl⟩ := hsu
  obtain ⟨d, hd⟩ := hd u hu
  simp only [hd, Option.bind_eq_bind, Option.bind_some, hf u hu (by rw [hs]; rfl), if_true, Option.isSome_some]

theorem firstUnitFor_some {tbl : List (TableUnit E K)} {d : DimVal E} {tu : TableUnit E K} (h : firstUnitFor tbl d = some tu) :
    tu ∈ tbl ∧ tu.dimension = d := ⟨List.mem_of_find?_eq_some h, by simpa using List.find?_some h⟩

theorem unitBySymbol_some {tbl : List (TableUnit E K)} {s : Str} {tu : TableUnit E K} (h : unitBySymbol tbl s = some tu) :
    tu ∈ tbl ∧ tu.symbol = s := ⟨List.mem_of_find?_eq_some h, by simpa using List.find?_some h⟩

theorem find?_isSome_of {α : Type} {l : List α} {p : α → Bool} {a : α} (h : a ∈ l) (hp : p a = true) : ∃ b, l.find? p = some b := by
  rw [← Option.isSome_iff_exists, List.find?_isSome]; exact ⟨a, h, hp⟩

/-! ## Reading units -/

theorem Outcome.bind_ok {α β : Type} {x : Outcome α} {f : α → Outcome β} {b : β} : x.bind f = .ok b ↔ ∃ a, x = .ok a ∧ f a = .ok b := by
  cases x <;> simp [Outcome.bind]

theorem Outcome.orError_ok {α : Type} {x : Option α} {a : α} : Outcome.orError x = .ok a ↔ x = some a := by
  cases x <;> simp [Outcome.orError]

theorem Outcome.orPanic_ok {α : Type} {x : Option α} {a : α} : Outcome.orPanic x = .ok a ↔ x = some a := by
  cases x <;> simp [Outcome.orPanic]

/-- The factor of one unit power as the code computes it. -/
def powerFactor (E M : Type) [Exponent E] [MagOps E M] [Prims K M] [TextPrims K M] (magnitude : K) (e : Int) : K :=
  Prims.into .f64 (MagOps.pow (TextPrims.fromF64 magnitude) (Exponent.ofInt e : E) : M)

theorem readSingleUnit_ok {tbl : List (TableUnit E K)} {w : Str} {r : DimVal E × K} : readSingleUnit M tbl w = .ok r ↔
    ∃ sym e tu, UnitWord w sym e ∧ unitBySymbol tbl sym = some tu ∧ DimVal.mul tu.dimension e = some r.1 ∧
      r.2 = powerFactor E M tu.magnitude e := by
  unfold readSingleUnit
  simp only [Outcome.bind_ok, Outcome.orError_ok, Outcome.orPanic_ok, Outcome.ok.injEq]
  constructor
  · rintro ⟨⟨sym, e⟩, h1, tu, h2, d, h3, rfl⟩
    exact ⟨sym, e, tu, unitWord_iff.1 h1, h2, h3, rfl⟩
  · rintro ⟨sym, e, tu, h1, h2, h3, h4⟩
    exact ⟨(sym, e), unitWord_iff.2 h1, tu, h2, r.1, h3, Prod.ext rfl h4.symm⟩

theorem readSingleUnit_not_error {tbl : List (TableUnit E K)} {w sym : Str} {e : Int} {tu : TableUnit E K} (h1 : UnitWord w sym e)
    (h2 : unitBySymbol tbl sym = some tu) : readSingleUnit M tbl w ≠ .error := by
  unfold readSingleUnit
  rw [unitWord_iff.2 h1]
  simp only [Outcome.orError, Outcome.bind, h2]
  cases DimVal.mul tu.dimension e <;> simp [Outcome.orPanic]

theorem unitWord_unique {w sym sym' : Str} {e e' : Int} (h : UnitWord w sym e) (h' : UnitWord w sym' e') : sym = sym' ∧ e = e' := by
  have h := unitWord_iff.2 h
  rw [unitWord_iff.2 h'] at h
  simpa using h.symm

/-- The unit words of a text, looked up in the table. -/
def TableWords (tbl : List (TableUnit E K)) (ws : List Str) (us : List (TableUnit E K × Int)) : Prop :=
  List.Forall₂ (fun w ue => UnitWord w ue.1.symbol ue.2 ∧ unitBySymbol tbl ue.1.symbol = some ue.1) ws us

theorem readUnits_ok {tbl : List (TableUnit E K)} {ws : List Str} {d0 d : DimVal E} {f0 f : K} (h : readUnits M tbl d0 f0 ws = .ok (d, f)) :
    ∃ us, TableWords tbl ws us ∧
      f = us.foldl (fun f ue => Prims.mul M .f64 f (powerFactor E M ue.1.magnitude ue.2)) f0 ∧
      us.foldlM (fun d ue => (DimVal.mul ue.1.dimension ue.2).bind fun x => DimVal.add d x) d0 = some d := by
  induction ws generalizing d0 f0 with
  | nil =>
    simp only [readUnits, Outcome.ok.injEq, Prod.mk.injEq] at h
    obtain ⟨rfl, rfl⟩ := h
    exact ⟨[], .nil, rfl, rfl⟩
  | cons w ws ih =>
    simp only [readUnits, Outcome.bind_ok, Outcome.orPanic_ok] at h
    obtain ⟨r, h1, d', h2, h3⟩ := h
    obtain ⟨us, g1, g2, g3⟩ := ih h3
    obtain ⟨sym, e, tu, k1, k2, k3, k4⟩ := readSingleUnit_ok.1 h1
    have hsym := (unitBySymbol_some k2).2
    subst hsym
    refine ⟨(tu, e) :: us, .cons ⟨k1, k2⟩ g1, ?_, ?_⟩
    · rw [g2, List.foldl_cons, k4]
    · rw [List.foldlM_cons]
      simp only [k3, Option.bind_some, h2, Option.bind_eq_bind]
      exact g3

theorem readUnits_not_error {tbl : List (TableUnit E K)} {ws : List Str} {us : List (TableUnit E K × Int)} (hw : TableWords tbl ws us)
    (d0 : DimVal E) (f0 : K) : readUnits M tbl d0 f0 ws ≠ .error := by
  induction hw generalizing d0 f0 with
  | nil => simp [readUnits]
  | @cons w ue ws us h _ ih =>
    simp only [readUnits]
    have := readSingleUnit_not_error (M := M) h.1 h.2
    cases hr : readSingleUnit M tbl w with
    | error => exact absurd hr this
    | panic => simp [Outcome.bind]
    | ok r =>
      simp only [Outcome.bind]
      cases DimVal.add d0 r.1 with
      | none => simp [Outcome.orPanic]
      | some d' => simp only [Outcome.orPanic]; exact ih _ _

theorem readUnits_of {tbl : List (TableUnit E K)} {ws : List Str} {us : List (TableUnit E K × Int)} (hw : TableWords tbl ws us)
    {d0 d : DimVal E} (f0 : K)
    (hd : us.foldlM (fun d ue => (DimVal.mul ue.1.dimension ue.2).bind fun x => DimVal.add d x) d0 = some d) :
    readUnits M tbl d0 f0 ws = .ok (d, us.foldl (fun f ue => Prims.mul M .f64 f (powerFactor E M ue.1.magnitude ue.2)) f0) := by
  induction hw generalizing d0 f0 with
  | nil =>
    simp only [List.foldlM_nil, Option.pure_def, Option.some.injEq] at hd
    subst hd
    rfl
  | @cons w ue ws us h _ ih =>
    rw [List.foldlM_cons, bindM_eq_some] at hd
    obtain ⟨d', h1, h2⟩ := hd
    rw [Option.bind_eq_some_iff] at h1
    obtain ⟨x, h3, h4⟩ := h1
    have hs : readSingleUnit M tbl w = .ok (x, powerFactor E M ue.1.magnitude ue.2) :=
      readSingleUnit_ok.2 ⟨_, _, _, h.1, h.2, h3, rfl⟩
    simp only [readUnits, hs, Outcome.bind, h4, Outcome.orPanic]
    exact ih _ h2

theorem tableWords_unique {tbl : List (TableUnit E K)} {ws : List Str} {us us' : List (TableUnit E K × Int)} (h : TableWords tbl ws us)
    (h' : TableWords tbl ws us') : us = us' := by
  induction h generalizing us' with
  | nil => cases h'; rfl
  | @cons w ue ws us h _ ih =>
    cases h' with
    | @cons _ ue' _ us'' g1 g2 =>
      rw [ih g2]
      obtain ⟨h1, h2⟩ := unitWord_unique h.1 g1.1
      have h3 := h.2
      rw [h1, g1.2, Option.some.injEq] at h3
      rw [Prod.ext h3.symm h2]

/-- The summed dimension of unit powers. -/
theorem foldlM_vec {bd : List Str} {us : List (TableUnit E K × Int)} {vs : UnitPowers E M}
    (hv : List.Forall₂ (fun (v : UnitDef E M × Int) (u : TableUnit E K × Int) => v.2 = u.2 ∧ u.1.dimension.Canonical ∧
      u.1.dimension.vec = bd.map v.1.dims.expo) vs us)
    {d0 d : DimVal E} {g : Str → ℚ} (hc : d0.Canonical) (h0 : d0.vec = bd.map g)
    (h : us.foldlM (fun d ue => (DimVal.mul ue.1.dimension ue.2).bind fun x => DimVal.add d x) d0 = some d) :
    d.Canonical ∧ d.vec = bd.map fun k => g k + vs.expo k := by
  induction hv generalizing d0 g with
  | nil =>
    simp only [List.foldlM_nil, Option.pure_def, Option.some.injEq] at h
    subst h
    exact ⟨hc, by rw [h0]; exact List.map_congr_left fun k _ => by simp [UnitPowers.expo]⟩
  | @cons v u vs us hvu _ ih =>
    rw [List.foldlM_cons, bindM_eq_some] at h
    obtain ⟨d', h1, h2⟩ := h
    rw [Option.bind_eq_some_iff] at h1
    obtain ⟨x, h3, h4⟩ := h1
    obtain ⟨c1, v1⟩ := DimVal.mul_spec hvu.2.1 h3
    obtain ⟨c2, v2, _⟩ := DimVal.add_spec hc c1 h4
    rw [v1, h0, hvu.2.2] at v2
    have hz : d'.vec = bd.map fun k => g k + (v.2 : ℚ) * v.1.dims.expo k := by
      rw [v2, List.map_map, List.zipWith_map, List.zipWith_self]
      exact List.map_congr_left fun k _ => by simp only [Function.comp]; rw [hvu.1, mul_comm]
    obtain ⟨c3, v3⟩ := ih c2 hz h2
    refine ⟨c3, v3.trans (List.map_congr_left fun k _ => ?_)⟩
    obtain ⟨vu, ve⟩ := v
    rw [UnitPowers.expo_cons]; exact add_assoc _ _ _

/-! ## The table of an accepted system -/

section
variable {factor : Prefix → M} {t : UnresolvedTemplates E M} {defs : Defs E M} {res : BMap (ResolvedItem E M)}

theorem unit_mem_allDims {U : UnitDef E M} (hU : U ∈ defs.units) : U.dims ∈ defs.allDims := by
  simp only [Defs.allDims, List.mem_append, List.mem_map]
  exact .inl (.inr ⟨U, hU, rfl⟩)

/-- The dimension in the table is the unit's. -/
theorem unit_dimension (h : Accepted (UnresolvedTemplates.expand (MagOps.one E) factor t) defs res)
    (hl : (UnresolvedTemplates.expand (MagOps.one E) factor t).LitExponents (WrittenExponent.Ok : E → Prop))
    {U : UnitDef E M} (hU : U ∈ defs.units) {d : DimVal E} (hd : dimensionExpr defs.baseDimensions U.dims = some d) :
    d.Canonical ∧ d.vec = defs.baseDimensions.map U.dims.expo := by
  obtain ⟨wf, hall⟩ := h.allDims_spec hl (unit_mem_allDims hU)
  have hbd : defs.baseDimensions.Nodup := by
    by_contra hn
    unfold dimensionExpr at hd
    rw [if_pos hn] at hd; cases hd
  rw [← h.base_dims] at hall
  obtain ⟨v, hv, hc, he⟩ := dimensionExpr_spec hbd wf.1 hall
  rw [hd, Option.some.injEq] at hv
  subst hv
  exact ⟨hc, he⟩

/-- The table unit that `read_single_unit_str` finds for a symbol is the entry of the unit with that symbol. -/
theorem bySymbol_of (h : Accepted (UnresolvedTemplates.expand (MagOps.one E) factor t) defs res) {tbl : List (TableUnit E K)}
    (ht : unitTable M defs.baseDimensions defs.units = some tbl) {U : UnitDef E M} (hU : U ∈ defs.units) {s : Str}
    (hs : U.symbol = some s) : ∃ tu, unitBySymbol tbl s = some tu ∧ tu.Of defs.baseDimensions U := by
  obtain ⟨h1, h2⟩ := unitTable_spec ht
  obtain ⟨tu, htu, ho⟩ := h2 U hU s hs
  have hsym : tu.symbol = s := by have := ho.1; rw [hs, Option.some.injEq] at this; exact this.symm
  obtain ⟨tu', ht'⟩ := find?_isSome_of (p := fun u : TableUnit E K => decide (u.symbol = s)) htu (by simpa using hsym)
  refine ⟨tu', ht', ?_⟩
  obtain ⟨hm, hs'⟩ := unitBySymbol_some ht'
  obtain ⟨V, hV, hov⟩ := h1 tu' hm
  have : U = V := symbol_unique h hU hV hs (by rw [hov.1, hs'])
  rw [this]; exact hov

theorem tableWords_names (h : Accepted (UnresolvedTemplates.expand (MagOps.one E) factor t) defs res) {tbl : List (TableUnit E K)}
    (ht : unitTable M defs.baseDimensions defs.units = some tbl) {ws : List Str} {us : List (TableUnit E K × Int)}
    (hw : TableWords tbl ws us) : ∃ vs : UnitPowers E M, NamesUnits defs ws vs ∧
      List.Forall₂ (fun v u => v.1 ∈ defs.units ∧ v.2 = u.2 ∧ u.1.Of defs.baseDimensions v.1) vs us := by
  obtain ⟨h1, _⟩ := unitTable_spec ht
  induction hw with
  | nil => exact ⟨[], .nil, .nil⟩
  | @cons w ue ws us hx _ ih =>
    obtain ⟨vs, g1, g2⟩ := ih
    obtain ⟨V, hV, hov⟩ := h1 ue.1 (unitBySymbol_some hx.2).1
    exact ⟨(V, ue.2) :: vs, .cons ⟨hV, _, hov.1, hx.1⟩ g1, .cons ⟨hV, rfl, hov⟩ g2⟩

theorem names_tableWords (h : Accepted (UnresolvedTemplates.expand (MagOps.one E) factor t) defs res) {tbl : List (TableUnit E K)}
    (ht : unitTable M defs.baseDimensions defs.units = some tbl) {ws : List Str} {vs : UnitPowers E M} (hw : NamesUnits defs ws vs) :
    ∃ us : List (TableUnit E K × Int), TableWords tbl ws us ∧
      List.Forall₂ (fun v u => v.1 ∈ defs.units ∧ v.2 = u.2 ∧ u.1.Of defs.baseDimensions v.1) vs us := by
  induction hw with
  | nil => exact ⟨[], .nil, .nil⟩
  | @cons w ve ws vs hx _ ih =>
    obtain ⟨us, g1, g2⟩ := ih
    obtain ⟨hV, sym, hs, hword⟩ := hx
    obtain ⟨tu, k1, k2⟩ := bySymbol_of h ht hV hs
    have hsym : tu.symbol = sym := (unitBySymbol_some k1).2
    exact ⟨(tu, ve.2) :: us, .cons ⟨by rw [hsym]; exact hword, by rw [hsym]; exact k1⟩ g1, .cons ⟨hV, rfl, k2⟩ g2⟩

theorem factor_eq {vs : UnitPowers E M} {us : List (TableUnit E K × Int)} {bd : List Str} {P : UnitDef E M → Prop}
    (hv : List.Forall₂ (fun (v : UnitDef E M × Int) u => P v.1 ∧ v.2 = u.2 ∧ u.1.Of bd v.1) vs us) :
    us.foldl (fun f ue => Prims.mul M .f64 f (powerFactor E M ue.1.magnitude ue.2)) (Prims.one M .f64) = vs.factor K := by
  unfold UnitPowers.factor
  generalize (Prims.one M .f64 : K) = f0
  induction hv generalizing f0 with
  | nil => rfl
  | cons hx _ ih =>
    rw [List.foldl_cons, List.foldl_cons, ih]
    unfold powerFactor
    rw [hx.2.1, hx.2.2.2.2]

theorem none_vec_map (bd : List Str) : (DimVal.none bd.length : DimVal E).vec = bd.map fun _ => (0 : ℚ) := by
  rw [DimVal.none_vec, List.map_const']

/-- What reading the unit words gives. -/
theorem readUnits_spec (h : Accepted (UnresolvedTemplates.expand (MagOps.one E) factor t) defs res)
    (hl : (UnresolvedTemplates.expand (MagOps.one E) factor t).LitExponents (WrittenExponent.Ok : E → Prop)) {tbl : List (TableUnit E K)}
    (ht : unitTable M defs.baseDimensions defs.units = some tbl) (ws : List Str) :
    (∀ d f, readUnits M tbl (DimVal.none defs.baseDimensions.length) (Prims.one M .f64) ws = .ok (d, f) →
      ∃ vs, NamesUnits defs ws vs ∧ HasDimension defs vs d ∧ d.Canonical ∧ f = vs.factor K) ∧
    (∀ vs, NamesUnits defs ws vs →
      readUnits M tbl (DimVal.none defs.baseDimensions.length) (Prims.one M .f64) ws = .panic ∨
      ∃ d, readUnits M tbl (DimVal.none defs.baseDimensions.length) (Prims.one M .f64) ws = .ok (d, vs.factor K) ∧
        d.Canonical ∧ HasDimension defs vs d) := by
  have hsum : ∀ {vs : UnitPowers E M} {us : List (TableUnit E K × Int)} {d : DimVal E},
      List.Forall₂ (fun v u => v.1 ∈ defs.units ∧ v.2 = u.2 ∧ u.1.Of defs.baseDimensions v.1) vs us →
      us.foldlM (fun d ue => (DimVal.mul ue.1.dimension ue.2).bind fun x => DimVal.add d x)
        (DimVal.none defs.baseDimensions.length) = some d → d.Canonical ∧ HasDimension defs vs d := by
    intro vs us d hv hd
    have hv' : List.Forall₂ (fun (v : UnitDef E M × Int) (u : TableUnit E K × Int) => v.2 = u.2 ∧ u.1.dimension.Canonical ∧
        u.1.dimension.vec = defs.baseDimensions.map v.1.dims.expo) vs us :=
      hv.imp fun v u hvu => by
        obtain ⟨c, e⟩ := unit_dimension h hl hvu.1 hvu.2.2.2.1
        exact ⟨hvu.2.1, c, e⟩
    obtain ⟨c, e⟩ := foldlM_vec hv' (DimVal.none_canonical _) (none_vec_map _) hd
    exact ⟨c, e.trans (List.map_congr_left fun k _ => zero_add _)⟩
  constructor
  · intro d f ho
    obtain ⟨us, g1, g2, g3⟩ := readUnits_ok ho
    obtain ⟨vs, k1, k2⟩ := tableWords_names h ht g1
    obtain ⟨c, e⟩ := hsum k2 g3
    exact ⟨vs, k1, e, c, by rw [g2, factor_eq k2]⟩
  · intro vs hv
    obtain ⟨us, g1, g2⟩ := names_tableWords h ht hv
    cases ho : readUnits M tbl (DimVal.none defs.baseDimensions.length) (Prims.one M .f64) ws with
    | panic => exact .inl rfl
    | error => exact absurd ho (readUnits_not_error g1 _ _)
    | ok r =>
      obtain ⟨d, f⟩ := r
      obtain ⟨us', k1, k2, k3⟩ := readUnits_ok ho
      obtain rfl := tableWords_unique g1 k1
      obtain ⟨c, e⟩ := hsum g2 k3
      exact .inr ⟨d, by rw [k2, factor_eq g2], c, e⟩

end

end
end Diman
