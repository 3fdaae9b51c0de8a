import Verif.Proofs.Renaming
import Verif.Proofs.Text
import Verif.Props.C59
/-!
# C61 — renaming dimensions, units and constants changes nothing but the names
-/
set_option linter.unusedSectionVars false
namespace Diman

section
variable {E M : Type} [Exponent E] [MagOps E M]

/-- **C61.** Rename dimensions, units and constants by a map `ρ` that gives different things different names, keeps the prefixed names of a
unit prefixed, and renames the base dimensions (in snake case) as `σ` does. The renamed system is accepted too, and generates the same
dimensions, units (with symbols and conversion factors) and constants under the new names. -/
theorem C61_renaming (factor : Prefix → M) (t : UnresolvedTemplates E M) (D : Defs E M) (accepted : runUnitSystem factor t = some (D, []))
    (ρ σ : Str → Str) (hρ : Function.Injective ρ) (hσ : Function.Injective σ)
    (base : ∀ d ∈ t.dimensions, d.isBase = true → toSnakecase (ρ d.name) = σ (toSnakecase d.name))
    (prefixes : ∀ u ∈ t.units, u.KeepsPrefixes ρ) :
    ∃ D', runUnitSystem factor (UnresolvedTemplates.rename ρ t) = some (D', []) ∧ Defs.Renamed ρ σ D D' := by
  obtain ⟨res, h⟩ := accepted_of_run accepted
  obtain ⟨D', h', hr⟩ := h.rename hρ hσ (ρ := ρ) (σ := σ) (fun d hd => base d hd)
  refine ⟨D', ?_, hr⟩
  rw [← expandAll_rename prefixes] at h'
  exact (accepted_iff (expand_autoOk _ _ _)).2 ⟨_, h'⟩

theorem Atom.rename_rename {C : Type} {ρ ρ' : Str → Str} (h : ∀ x, ρ' (ρ x) = x) (a : Atom C) : (a.rename ρ).rename ρ' = a := by
  cases a <;> simp [Atom.rename, h]
mutual
theorem Expr.map_same {T : Type} (e : Expr T E) : e.map id = e := by
  match e with
  | .value f => simp [Expr.map, Factor.map_same f]
  | .binary l o r => simp [Expr.map, Expr.map_same l, Factor.map_same r]
theorem Factor.map_same {T : Type} (e : Factor T E) : e.map id = e := by
  match e with
  | .value a => rfl
  | .power a _ => rfl
  | .paren e => simp [Factor.map, Expr.map_same e]
end
theorem Expr.rename_rename {C : Type} {ρ ρ' : Str → Str} (h : ∀ x, ρ' (ρ x) = x) (e : Expr (Atom C) E) :
    (e.map (Atom.rename ρ)).map (Atom.rename ρ') = e := by
  rw [Expr.map_map, show (Atom.rename ρ' ∘ Atom.rename ρ : Atom C → Atom C) = id from funext fun a => Atom.rename_rename h a, Expr.map_same]

theorem UnresolvedTemplates.rename_rename {ρ ρ' : Str → Str} (h : ∀ x, ρ' (ρ x) = x) (t : UnresolvedTemplates E M) :
    UnresolvedTemplates.rename ρ' (UnresolvedTemplates.rename ρ t) = t := by
  obtain ⟨a, b, ds, us, cs⟩ := t
  have ho : ∀ o : Option Str, (o.map ρ).map ρ' = o := by rintro (_ | x) <;> simp [h]
  have hd : ∀ d : DimensionEntry E, (d.rename ρ).rename ρ' = d := by
    rintro ⟨n, _ | e⟩ <;> simp [DimensionEntry.rename, Definition.rename, h, Expr.rename_rename]
  have hu : ∀ u : UnitTemplate E M, (u.rename ρ).rename ρ' = u := by
    rintro ⟨n, s, al, p, an, _ | e⟩ <;> simp [UnitTemplate.rename, Definition.rename, h, Expr.rename_rename, Function.comp_def]
  have hc : ∀ c : ConstantEntry E M, (c.rename ρ).rename ρ' = c := by
    rintro ⟨n, r, an⟩; simp [ConstantEntry.rename, h, Expr.rename_rename, Function.comp_def]
  simp [UnresolvedTemplates.rename, Function.comp_def, hd, hu, hc]

/-- **C61, acceptance.** A one-to-one renaming changes neither acceptance nor rejection. -/
theorem C61_accepted_iff (factor : Prefix → M) (t : UnresolvedTemplates E M) (ρ σ : Equiv.Perm Str)
    (base : ∀ d ∈ t.dimensions, d.isBase = true → toSnakecase (ρ d.name) = σ (toSnakecase d.name))
    (prefixes : ∀ u ∈ t.units, u.KeepsPrefixes ρ) :
    (∃ D, runUnitSystem factor t = some (D, [])) ↔ ∃ D', runUnitSystem factor (UnresolvedTemplates.rename ρ t) = some (D', []) := by
  constructor
  · rintro ⟨D, h⟩
    obtain ⟨D', h', -⟩ := C61_renaming factor t D h ρ σ ρ.injective σ.injective base prefixes
    exact ⟨D', h'⟩
  · rintro ⟨D, h⟩
    obtain ⟨D', h', -⟩ := C61_renaming factor (UnresolvedTemplates.rename ρ t) D h ρ.symm σ.symm ρ.symm.injective σ.symm.injective
      (fun d hd hb => by
        obtain ⟨d, hd', rfl⟩ := List.mem_map.1 hd
        rw [isBase_rename] at hb
        have := base d hd' hb
        rw [show (DimensionEntry.rename ρ d).name = ρ d.name from rfl, this]; simp)
      (fun u hu => by
        obtain ⟨u, hu', rfl⟩ := List.mem_map.1 hu
        intro p hp n hn
        have hn : n ∈ (u.name :: u.aliases).map ρ := hn
        obtain ⟨m, hm, rfl⟩ := List.mem_map.1 hn
        rw [← prefixes u hu' p hp m hm]; simp)
    rw [UnresolvedTemplates.rename_rename (by simp)] at h'
    exact ⟨D', h'⟩

/-! ### What a program sees -/

theorem find?_perm_map {α β : Type} {p : α → Bool} {f : α → β} {l l' : List α} (h : l.Perm l')
    (hu : ∀ a ∈ l, ∀ b ∈ l, p a = true → p b = true → f a = f b) : (l.find? p).map f = (l'.find? p).map f := by
  cases h1 : l.find? p with
  | none =>
    rw [List.find?_eq_none] at h1
    rw [List.find?_eq_none.2 fun a ha => h1 a (h.mem_iff.2 ha)]
  | some a =>
    cases h2 : l'.find? p with
    | none =>
      rw [List.find?_eq_none] at h2
      exact absurd (List.find?_some h1) (h2 a (h.mem_iff.1 (List.mem_of_find?_eq_some h1)))
    | some b =>
      simp only [Option.map_some, Option.some.injEq]
      exact hu a (List.mem_of_find?_eq_some h1) b (h.mem_iff.2 (List.mem_of_find?_eq_some h2)) (List.find?_some h1) (List.find?_some h2)

theorem mapM_perm {α β : Type} {f : α → Option β} {l l' : List α} (h : l.Perm l') {a : List β} (ha : l.mapM f = some a) :
    ∃ a', l'.mapM f = some a' ∧ a.Perm a' := by
  induction h generalizing a with
  | nil => exact ⟨a, ha, .refl _⟩
  | cons x _ ih =>
    simp only [List.mapM_cons, Option.bind_eq_bind, Option.bind_eq_some_iff, Option.pure_def, Option.some.injEq] at ha
    obtain ⟨b, hb, c, hc, rfl⟩ := ha
    obtain ⟨c', hc', hp⟩ := ih hc
    exact ⟨b :: c', by simp [hb, hc'], hp.cons b⟩
  | swap x y l =>
    simp only [List.mapM_cons, Option.bind_eq_bind, Option.bind_eq_some_iff, Option.pure_def, Option.some.injEq] at ha
    obtain ⟨b, hb, c, ⟨e, he, g, hg, rfl⟩, rfl⟩ := ha
    exact ⟨e :: b :: g, by simp [hb, he, hg], .swap _ _ _⟩
  | trans _ _ ih1 ih2 =>
    obtain ⟨b, hb, p1⟩ := ih1 ha
    obtain ⟨c, hc, p2⟩ := ih2 hb
    exact ⟨c, hc, p1.trans p2⟩

theorem find_rename {ρ : Str → Str} (hρ : Function.Injective ρ) {α : Type} {name : α → Str} {f : α → α} (hf : ∀ a, name (f a) = ρ (name a))
    {l l' : List α} (hn : (l.map name).Nodup) (h : l'.Perm (l.map f)) (x : Str) :
    (l'.find? fun a => name a = ρ x) = (l.find? fun a => name a = x).map f := by
  have : ((l.map f).find? fun a => name a = ρ x) = (l.find? fun a => name a = x).map f := by
    rw [List.find?_map]
    congr 2; funext a
    simp [hf, hρ.eq_iff]
  rw [← this]
  have hn' : ((l.map f).map name).Nodup := by
    rw [List.map_map, show name ∘ f = ρ ∘ name from funext hf, ← List.map_map]; exact hn.map hρ
  have := find?_perm_map (f := id) (p := fun a => decide (name a = ρ x)) h.symm fun a ha b hb pa pb => by
    simp only [decide_eq_true_eq] at pa pb
    exact List.inj_on_of_nodup_map hn' ha hb (pa.trans pb.symm)
  simpa using this.symm

theorem Dims.rename_expo [LawfulExponent E] {σ : Str → Str} (hσ : Function.Injective σ) (d : Dims E) (k : Str) : (d.rename σ).expo (σ k) = d.expo k := by
  simp only [Dims.expo, Dims.rename_get hσ]

/-- **C61, values.** Under its new name every unit and constant has the conversion factor and (with respect to the renamed base dimensions)
the exponents that it had before; every dimension has its exponents. -/
theorem C61_values [LawfulExponent E] (factor : Prefix → M) (t : UnresolvedTemplates E M) (D : Defs E M)
    (accepted : runUnitSystem factor t = some (D, []))
    (ρ σ : Str → Str) (hρ : Function.Injective ρ) (hσ : Function.Injective σ)
    (base : ∀ d ∈ t.dimensions, d.isBase = true → toSnakecase (ρ d.name) = σ (toSnakecase d.name))
    (prefixes : ∀ u ∈ t.units, u.KeepsPrefixes ρ) :
    ∃ D', runUnitSystem factor (UnresolvedTemplates.rename ρ t) = some (D', []) ∧
      (∀ x, D'.magOf (ρ x) = D.magOf x) ∧ (∀ x k, D'.unitExpo (ρ x) (σ k) = D.unitExpo x k) ∧
      ∀ x k, D'.dimExpo (ρ x) (σ k) = D.dimExpo x k := by
  obtain ⟨D', h', hr⟩ := C61_renaming factor t D accepted ρ σ hρ hσ base prefixes
  obtain ⟨res, h⟩ := accepted_of_run accepted
  have hu := fun x => find_rename hρ (f := fun u : UnitDef E M => ⟨ρ u.name, u.dims.rename σ, u.mag, u.symbol, u.isBase⟩) (fun _ => rfl)
    h.unit_nodup hr.units x
  have hc := fun x => find_rename hρ (f := fun u : ConstantDef E M => ⟨ρ u.name, u.dims.rename σ, u.mag⟩) (fun _ => rfl)
    h.const_nodup hr.constants x
  have hd := fun x => find_rename hρ (f := fun u : DimensionDef E => ⟨ρ u.name, u.dims.rename σ⟩) (fun _ => rfl)
    h.dim_nodup hr.dimensions x
  refine ⟨D', h', fun x => ?_, fun x k => ?_, fun x k => ?_⟩
  · unfold Defs.magOf
    rw [hu, hc]
    cases D.units.find? fun u => u.name = x with
    | some u => rfl
    | none => cases D.constants.find? fun u => u.name = x <;> rfl
  · unfold Defs.unitExpo
    rw [hu, hc]
    cases D.units.find? fun u => u.name = x with
    | some u => exact Dims.rename_expo hσ _ _
    | none =>
      cases D.constants.find? fun u => u.name = x with
      | some u => exact Dims.rename_expo hσ _ _
      | none => rfl
  · unfold Defs.dimExpo
    rw [hd]
    cases D.dimensions.find? fun u => u.name = x with
    | some u => exact Dims.rename_expo hσ _ _
    | none => rfl
end

section
variable {E M K : Type} [Exponent E] [LawfulExponent E] [FieldOps E] [LawfulFieldOps E] [WrittenExponent E] [ShowExponent E]
  [MagOps E M] [Prims K M] [TextPrims K M]

theorem dimensionExpr_rename {σ : Str → Str} (hσ : Function.Injective σ) (bd : List Str) (d : Dims E) :
    dimensionExpr (bd.map σ) (d.rename σ) = dimensionExpr bd d := by
  have hk : (d.rename σ).map Prod.fst = (d.map Prod.fst).map σ := by simp [Dims.rename, Function.comp_def]
  have hfind : ∀ k, (d.rename σ).find? (fun kv => kv.1 = σ k) = (d.find? fun kv => kv.1 = k).map fun kv => (σ kv.1, kv.2) := by
    intro k
    rw [Dims.rename, List.find?_map]
    congr 2; funext a; simp [hσ.eq_iff]
  have h3 : (bd.map σ).mapM (fun k => match (d.rename σ).find? (fun kv => kv.1 = k) with
      | some (_, v) => FieldOps.entry v
      | none => some FieldOps.zero) = bd.mapM (fun k => match d.find? (fun kv => kv.1 = k) with
      | some (_, v) => FieldOps.entry v
      | none => some FieldOps.zero) := by
    rw [List.mapM_map]
    congr 1; funext k
    simp only [Function.comp, hfind]
    cases d.find? fun kv => kv.1 = k <;> rfl
  unfold dimensionExpr structExpr
  refine ite_congr (by rw [List.nodup_map_iff hσ]) (fun _ => rfl) fun _ => ite_congr ?_ (fun _ => rfl) fun _ =>
    ite_congr ?_ (fun _ => rfl) fun _ => h3
  · rw [hk, List.nodup_map_iff hσ]
    simp only [List.forall_mem_map, List.mem_map_of_injective hσ]
  · rw [hk]
    simp only [List.forall_mem_map, List.mem_map_of_injective hσ, List.length_map, Dims.rename]

/-- Two units of factor one that both have a symbol never have the same dimension. -/
def Defs.NoTies (D : Defs E M) : Prop :=
  ∀ U ∈ D.units, ∀ V ∈ D.units, MagOps.isOne E U.mag = true → MagOps.isOne E V.mag = true → U.symbol.isSome → V.symbol.isSome →
    dimensionExpr D.baseDimensions U.dims = dimensionExpr D.baseDimensions V.dims → U.symbol = V.symbol

theorem unitTable_rename {ρ σ : Str → Str} (hσ : Function.Injective σ) {bd : List Str} {us us' : List (UnitDef E M)}
    (h : us'.Perm (us.map fun u => ⟨ρ u.name, u.dims.rename σ, u.mag, u.symbol, u.isBase⟩)) :
    (unitTable (K := K) M bd us = none ∧ unitTable (K := K) M (bd.map σ) us' = none) ∨
    ∃ tbl tbl' : List (TableUnit E K), unitTable M bd us = some tbl ∧ unitTable M (bd.map σ) us' = some tbl' ∧ tbl.Perm tbl' := by
  have h0 : unitTable (K := K) M (bd.map σ) (us.map fun u => ⟨ρ u.name, u.dims.rename σ, u.mag, u.symbol, u.isBase⟩) = unitTable M bd us := by
    unfold unitTable
    rw [List.filterMap_map]
    have : (us.filterMap ((fun u : UnitDef E M => u.symbol.map fun s => (s, u)) ∘
        fun u => (⟨ρ u.name, u.dims.rename σ, u.mag, u.symbol, u.isBase⟩ : UnitDef E M))) =
        (us.filterMap fun u => u.symbol.map fun s => (s, u)).map
          fun su => (su.1, (⟨ρ su.2.name, su.2.dims.rename σ, su.2.mag, su.2.symbol, su.2.isBase⟩ : UnitDef E M)) := by
      rw [List.map_filterMap]
      congr 1; funext u
      simp only [Function.comp, Option.map_map]
      rfl
    rw [this, List.mapM_map]
    congr 1; funext su
    simp only [Function.comp, dimensionExpr_rename hσ]
  rw [← h0]
  generalize us.map _ = vs at h
  unfold unitTable
  have hp := (h.filterMap fun u => u.symbol.map fun s => (s, u))
  generalize hf : (fun su : Str × UnitDef E M => (do
    let d ← dimensionExpr (bd.map σ) su.2.dims
    let m : K := Prims.into .f64 su.2.mag
    if TextPrims.finite M m then some (⟨su.1, d, m⟩ : TableUnit E K) else none)) = f
  cases h1 : (vs.filterMap fun u => u.symbol.map fun s => (s, u)).mapM f with
  | some tbl =>
    obtain ⟨tbl', h2, h3⟩ := mapM_perm hp.symm h1
    exact .inr ⟨tbl, tbl', rfl, h2, h3⟩
  | none =>
    cases h2 : (us'.filterMap fun u => u.symbol.map fun s => (s, u)).mapM f with
    | none => exact .inl ⟨rfl, rfl⟩
    | some tbl' =>
      obtain ⟨tbl, h3, -⟩ := mapM_perm hp h2
      rw [h1] at h3; cases h3

theorem readUnits_congr {tbl tbl' : List (TableUnit E K)} (h : ∀ s, unitBySymbol tbl s = unitBySymbol tbl' s) (d : DimVal E) (f : K)
    (ws : List Str) : readUnits M tbl d f ws = readUnits M tbl' d f ws := by
  induction ws generalizing d f with
  | nil => rfl
  | cons w ws ih =>
    simp only [readUnits, ih]
    congr 1
    unfold readSingleUnit
    simp only [h]

/-- **C61, stored data.** Whatever is read as a quantity (a text with unit symbols or a number), the renamed system reads exactly the same:
the same quantity, the same error or the same panic. -/
theorem C61_reading (factor : Prefix → M) (t : UnresolvedTemplates E M) (D : Defs E M) (accepted : runUnitSystem factor t = some (D, []))
    (ρ σ : Str → Str) (hρ : Function.Injective ρ) (hσ : Function.Injective σ)
    (base : ∀ d ∈ t.dimensions, d.isBase = true → toSnakecase (ρ d.name) = σ (toSnakecase d.name))
    (prefixes : ∀ u ∈ t.units, u.KeepsPrefixes ρ) :
    ∃ D', runUnitSystem factor (UnresolvedTemplates.rename ρ t) = some (D', []) ∧
      ∀ (s : Storage) (d : DimVal E) (v : SerdeValue K), deserialize M D' s d v = deserialize M D s d v := by
  obtain ⟨D', h', hr⟩ := C61_renaming factor t D accepted ρ σ hρ hσ base prefixes
  obtain ⟨res, h⟩ := accepted_of_run accepted
  refine ⟨D', h', fun s d v => ?_⟩
  have hlen : D'.baseDimensions.length = D.baseDimensions.length := by rw [hr.baseDimensions, List.length_map]
  rcases unitTable_rename (K := K) hσ (bd := D.baseDimensions) hr.units with ⟨h1, h2⟩ | ⟨tbl, tbl', h1, h2, hp⟩
  · rw [← hr.baseDimensions] at h2
    cases v <;> simp [deserialize, deserializeStr, h1, h2]
  · rw [← hr.baseDimensions] at h2
    have hs : ∀ x, unitBySymbol tbl' x = unitBySymbol tbl x := by
      intro x
      have := find?_perm_map (f := id) (p := fun u : TableUnit E K => decide (u.symbol = x)) hp fun a ha b hb pa pb => by
        simp only [decide_eq_true_eq] at pa pb
        obtain ⟨U, hU, u1, u2, u3⟩ := (unitTable_spec h1).1 a ha
        obtain ⟨V, hV, v1, v2, v3⟩ := (unitTable_spec h1).1 b hb
        rw [pa] at u1
        rw [pb] at v1
        have := symbol_unique h hU hV u1 v1
        subst this
        rw [u2, Option.some.injEq] at v2
        cases a; cases b; simp_all
      simpa [unitBySymbol] using this.symm
    cases v with
    | str text =>
      simp only [deserialize, deserializeStr, h1, h2, hlen, Option.bind_eq_bind, Option.bind_some, visitStrFloat, visitStrVector,
        readUnits_congr (M := M) hs]
    | _ => simp only [deserialize, h1, h2, hlen, Option.bind_eq_bind, Option.bind_some]

/-- **C61, printing.** If no two units of factor one that have a symbol have the same dimension, the renamed system also prints and
serialises every quantity as before. (Otherwise the symbol printed is that of the unit whose *name* comes first: `C61_print_depends_on_names`.) -/
theorem C61_printing (factor : Prefix → M) (t : UnresolvedTemplates E M) (D : Defs E M) (accepted : runUnitSystem factor t = some (D, []))
    (ρ σ : Str → Str) (hρ : Function.Injective ρ) (hσ : Function.Injective σ)
    (base : ∀ d ∈ t.dimensions, d.isBase = true → toSnakecase (ρ d.name) = σ (toSnakecase d.name))
    (prefixes : ∀ u ∈ t.units, u.KeepsPrefixes ρ) (noTies : D.NoTies) :
    ∃ D', runUnitSystem factor (UnresolvedTemplates.rename ρ t) = some (D', []) ∧
      (∀ (d : DimVal E) (value : Str), debugFmt K D' d value = debugFmt K D d value) ∧
      ∀ (s : Storage) (d : DimVal E) (r : Raw K), serializeStr M D' s d r = serializeStr M D s d r := by
  obtain ⟨D', h', hr⟩ := C61_renaming factor t D accepted ρ σ hρ hσ base prefixes
  have key : ∀ (d : DimVal E) (value : Str), debugFmt K D' d value = debugFmt K D d value := by
    intro d value
    have hf : (D'.units.filter fun u => MagOps.isOne E u.mag).Perm ((D.units.filter fun u => MagOps.isOne E u.mag).map
        fun u => ⟨ρ u.name, u.dims.rename σ, u.mag, u.symbol, u.isBase⟩) := by
      have := hr.units.filter fun u => MagOps.isOne E u.mag
      rwa [List.filter_map] at this
    unfold debugFmt
    rw [hr.baseDimensions]
    rcases unitTable_rename (K := K) hσ (bd := D.baseDimensions) hf with ⟨h1, h2⟩ | ⟨tbl, tbl', h1, h2, hp⟩
    · rw [h1, h2]; rfl
    · rw [h1, h2]
      have hs : ∀ d, (firstUnitFor tbl' d).map TableUnit.symbol = (firstUnitFor tbl d).map TableUnit.symbol := by
        intro d
        refine (find?_perm_map hp fun a ha b hb pa pb => ?_).symm
        simp only [decide_eq_true_eq] at pa pb
        obtain ⟨U, hU, u1, u2, u3⟩ := (unitTable_spec h1).1 a ha
        obtain ⟨V, hV, v1, v2, v3⟩ := (unitTable_spec h1).1 b hb
        rw [List.mem_filter] at hU hV
        have := noTies U hU.1 V hV.1 hU.2 hV.2 (by simp [u1]) (by simp [v1]) (by rw [u2, v2, pa, pb])
        rw [u1, v1] at this
        exact Option.some.inj this
      have hb : ∀ b e, baseSymbolText (D.baseDimensions.map σ) tbl' (σ b) e = baseSymbolText D.baseDimensions tbl b e := by
        intro b e
        unfold baseSymbolText
        have : dimensionExpr (D.baseDimensions.map σ) [(σ b, (Exponent.one : E))] = dimensionExpr D.baseDimensions [(b, Exponent.one)] :=
          dimensionExpr_rename hσ D.baseDimensions [(b, Exponent.one)]
        rw [this]
        cases dimensionExpr D.baseDimensions [(b, (Exponent.one : E))] with
        | none => rfl
        | some dim =>
          have := hs dim
          simp only [Option.bind_eq_bind, Option.bind_some]
          cases h3 : firstUnitFor tbl dim <;> cases h4 : firstUnitFor tbl' dim <;> simp_all
      have : debugUnitText (D.baseDimensions.map σ) tbl' d = debugUnitText D.baseDimensions tbl d := by
        unfold debugUnitText
        have h5 := hs d
        have h6 : ((D.baseDimensions.map σ).zip d).mapM (fun be => baseSymbolText (D.baseDimensions.map σ) tbl' be.1 be.2) =
            (D.baseDimensions.zip d).mapM fun be => baseSymbolText D.baseDimensions tbl be.1 be.2 := by
          rw [List.zip_map_left, List.mapM_map]
          congr 1; funext be
          exact hb be.1 be.2
        cases h3 : firstUnitFor tbl d <;> cases h4 : firstUnitFor tbl' d <;> simp_all
      rw [Option.bind_eq_bind, Option.bind_some, Option.bind_eq_bind, Option.bind_some, this]
  refine ⟨D', h', key, fun s d r => ?_⟩
  unfold serializeStr
  simp only [key]

end

/-! ## Examples -/
section
open Sample
attribute [local instance] Sample.exactMag Sample.ratPrims Sample.ratText Sample.ratLawful

/-- Lengths, times and frequencies, a unit with a prefix, a constant. -/
def C61.small : UnresolvedTemplates Int ℚ where
  quantityTypes := [str!"Quantity"]
  dimensionTypes := [str!"Dimension"]
  dimensions := [⟨str!"Length", .base ()⟩, ⟨str!"Time", .base ()⟩]
  units := [baseUnit (str!"meters") (str!"m") (str!"Length") [.kilo], baseUnit (str!"seconds") (str!"s") (str!"Time") [],
    unit (str!"hertz") (.binary (.value (c 1)) .div (v (str!"seconds"))) (some (str!"Hz"))]
  constants := [⟨str!"LIGHT", .binary (.binary (.value (c 3)) .mul (v (str!"kilometers"))) .div (v (str!"seconds")), none⟩]

/-- `Length` becomes `Distance`, `meters` becomes `metra` (and so `kilometers` `kilometra`), `LIGHT` becomes `C`, and conversely. -/
def C61.names : Equiv.Perm Str :=
  Equiv.swap (str!"Length") (str!"Distance") * Equiv.swap (str!"meters") (str!"metra") *
    Equiv.swap (str!"kilometers") (str!"kilometra") * Equiv.swap (str!"LIGHT") (str!"C")

-- Everything C61 asks for holds.
example : ∃ D D' : Defs Int ℚ, runUnitSystem exactFactor C61.small = some (D, []) ∧
    runUnitSystem exactFactor (UnresolvedTemplates.rename C61.names C61.small) = some (D', []) ∧
    D.NoTies ∧ Defs.Renamed C61.names (Equiv.swap (str!"length") (str!"distance")) D D' ∧
    D.units.map UnitDef.name = [str!"hertz", str!"kilometers", str!"meters", str!"seconds"] ∧
    D'.baseDimensions = [str!"distance", str!"time"] ∧ D'.constants.map ConstantDef.name = [str!"C"] := by
  have h : runUnitSystem exactFactor C61.small = some (C59.compiled C61.small, []) := C59.run (by decide +kernel)
  obtain ⟨D', h', hr⟩ := C61_renaming exactFactor C61.small _ h C61.names (Equiv.swap (str!"length") (str!"distance"))
    (Equiv.injective _) (Equiv.injective _) (by decide +kernel) (by unfold UnitTemplate.KeepsPrefixes; decide +kernel)
  refine ⟨_, D', h, h', by unfold Defs.NoTies; decide +kernel, hr, by decide +kernel, ?_, ?_⟩
  · rw [hr.baseDimensions]; decide +kernel
  · have := hr.constants.map ConstantDef.name
    rw [show (List.map ConstantDef.name ((C59.compiled C61.small).constants.map
      fun c => (⟨C61.names c.name, c.dims.rename (Equiv.swap (str!"length") (str!"distance")), c.mag⟩ : ConstantDef Int ℚ))) = [str!"C"] by
        decide +kernel] at this
    exact List.perm_singleton.1 this

/-- Hertz and becquerel: two units of factor one for the same dimension. -/
def C61.ties : UnresolvedTemplates Int ℚ where
  quantityTypes := [str!"Quantity"]
  dimensionTypes := [str!"Dimension"]
  dimensions := [⟨str!"Time", .base ()⟩]
  units := [baseUnit (str!"seconds") (str!"s") (str!"Time") [],
    unit (str!"hertz") (.binary (.value (c 1)) .div (v (str!"seconds"))) (some (str!"Hz")),
    unit (str!"becquerels") (.binary (.value (c 1)) .div (v (str!"seconds"))) (some (str!"Bq"))]
  constants := []

/-- **C61, a dependency on names.** Without `NoTies` printing is not invariant under renaming: of several units of factor one for the printed
dimension the one whose name comes first in alphabetical order is printed. With the names `hertz` and `becquerels` a frequency prints as
`5 Bq`; after renaming `becquerels` to `the_becquerels` the same quantity prints as `5 Hz`. -/
theorem C61_print_depends_on_names : ∃ (t : UnresolvedTemplates Int ℚ) (ρ : Equiv.Perm Str) (D D' : Defs Int ℚ),
    runUnitSystem exactFactor t = some (D, []) ∧ runUnitSystem exactFactor (UnresolvedTemplates.rename ρ t) = some (D', []) ∧
    (∀ d ∈ t.dimensions, ρ d.name = d.name) ∧ (∀ u ∈ t.units, u.KeepsPrefixes ρ) ∧
    debugFmt ℚ D ([-1] : DimVal Int) (str!"5") = some (str!"5 Bq") ∧ debugFmt ℚ D' ([-1] : DimVal Int) (str!"5") = some (str!"5 Hz") :=
  ⟨C61.ties, Equiv.swap (str!"becquerels") (str!"the_becquerels"), C59.compiled C61.ties,
    C59.compiled (UnresolvedTemplates.rename (Equiv.swap (str!"becquerels") (str!"the_becquerels")) C61.ties),
    C59.run (by decide +kernel), C59.run (by decide +kernel), by decide +kernel, by unfold UnitTemplate.KeepsPrefixes; decide +kernel,
    by decide +kernel, by decide +kernel⟩
end
end Diman
