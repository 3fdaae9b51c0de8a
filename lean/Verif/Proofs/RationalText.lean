import Verif.Proofs.RationalApi
/-! The two builds run side by side, and the text they read and write. -/
set_option linter.unusedSectionVars false
namespace Diman

/-! ### Side by side -/

section
variable {M M' : Type} [MagOps Int M] [MagOps Ratio M']

/-- Both builds' arithmetic at once. -/
@[reducible] def sideBySide : MagOps I64 (M × M') where
  one := (MagOps.one Int, MagOps.one Ratio)
  mul a b := (MagOps.mul Int a.1 b.1, MagOps.mul Ratio a.2 b.2)
  div a b := (MagOps.div Int a.1 b.1, MagOps.div Ratio a.2 b.2)
  pow a n := (MagOps.pow a.1 n.val, MagOps.pow a.2 n.ratio)
  isOne _ := false

attribute [local instance] sideBySide

instance : ExHom (M := M × M') (M' := M) I64.val Prod.fst where
  one' := rfl
  mul' _ _ := rfl
  div' _ _ := rfl
  pow' _ _ := rfl
instance : ExHom (M := M × M') (M' := M') I64.ratio Prod.snd where
  one' := rfl
  mul' _ _ := rfl
  div' _ _ := rfl
  pow' _ _ := rfl

/-- What the two builds do with text the integer build parses. -/
theorem both_builds (mag : Number → M) (factor : Prefix → M) (mag' : Number → M') (factor' : Prefix → M') (ts : List Tok) :
    unitSystem mag factor ts = (.syntaxError : MacroResult (Defs Int M × List Diag)) ∨
    ∃ o : Option (Defs I64 (M × M') × List Diag),
      unitSystem mag factor ts = (match o with | none => .panic | some p => .done (p.1.mapEx I64.val Prod.fst, p.2) : MacroResult (Defs Int M × List Diag)) ∧
      unitSystem mag' factor' ts = (match o with | none => .panic | some p => .done (p.1.mapEx I64.ratio Prod.snd, p.2) : MacroResult (Defs Ratio M' × List Diag)) := by
  cases hp : parseSystem false ts with
  | none => left; unfold unitSystem; rw [show ReadExponent.rational Int = false from rfl, hp]
  | some t =>
    right
    obtain ⟨h1, t', ht⟩ := parse_rational (fun x => (mag x, mag' x)) hp
    refine ⟨runUnitSystem (fun p => (factor p, factor' p)) t', ?_, ?_⟩
    · unfold unitSystem
      rw [show ReadExponent.rational Int = false from rfl, hp]
      have := readTemplates_lift (fun x n h => read_int h) _ Prod.fst t t' ht
      rw [show (Prod.fst ∘ fun x => (mag x, mag' x)) = mag from rfl] at this
      simp only [this]
      have := runUnitSystem_mapEx (ψ := I64.val) (φ := Prod.fst) (fun p => (factor p, factor' p)) t'
      rw [show (Prod.fst ∘ fun x => (factor x, factor' x)) = factor from rfl] at this
      rw [this]
      cases runUnitSystem (fun p => (factor p, factor' p)) t' <;> rfl
    · unfold unitSystem
      rw [show ReadExponent.rational Ratio = true from rfl, h1]
      have := readTemplates_lift (fun x n h => read_ratio h) _ Prod.snd t t' ht
      rw [show (Prod.snd ∘ fun x => (mag x, mag' x)) = mag' from rfl] at this
      simp only [this]
      have := runUnitSystem_mapEx (ψ := I64.ratio) (φ := Prod.snd) (fun p => (factor p, factor' p)) t'
      rw [show (Prod.snd ∘ fun x => (factor x, factor' x)) = factor' from rfl] at this
      rw [this]
      cases runUnitSystem (fun p => (factor p, factor' p)) t' <;> rfl

theorem mapPow_asRatio (d : Dims I64) : d.mapPow I64.ratio = (d.mapPow I64.val).asRatio := by
  unfold Dims.mapPow Dims.asRatio
  rw [List.map_map]; rfl

theorem sameDefinitions_mapEx {M0 : Type} (φ : M0 → M) (φ' : M0 → M') (p : Defs I64 M0) : SameDefinitions (p.mapEx I64.val φ) (p.mapEx I64.ratio φ') where
  dimensionType := rfl
  quantityType := rfl
  baseDimensions := rfl
  dimensions := by
    show List.Forall₂ _ (p.dimensions.map _) (p.dimensions.map _)
    rw [List.forall₂_map_left_iff, List.forall₂_map_right_iff, List.forall₂_same]
    exact fun x _ => ⟨rfl, mapPow_asRatio _⟩
  units := by
    show List.Forall₂ _ (p.units.map _) (p.units.map _)
    rw [List.forall₂_map_left_iff, List.forall₂_map_right_iff, List.forall₂_same]
    exact fun x _ => ⟨rfl, rfl, rfl, mapPow_asRatio _⟩
  constants := by
    show List.Forall₂ _ (p.constants.map _) (p.constants.map _)
    rw [List.forall₂_map_left_iff, List.forall₂_map_right_iff, List.forall₂_same]
    exact fun x _ => ⟨rfl, mapPow_asRatio _⟩
end

/-! ### The same arithmetic in both builds -/

section
variable {M : Type} [MagOps Int M] [MagOps Ratio M]

/-- The common arithmetic. -/
@[reducible] def common : MagOps I64 M where
  one := MagOps.one Int
  mul := MagOps.mul Int
  div := MagOps.div Int
  pow a n := MagOps.pow a n.val
  isOne := MagOps.isOne Int

attribute [local instance] common

instance : ExHom (M := M) (M' := M) I64.val id where
  one' := rfl
  mul' _ _ := rfl
  div' _ _ := rfl
  pow' _ _ := rfl

theorem exHom_common (h : SameArithmetic M) : ExHom (M := M) (M' := M) I64.ratio id where
  one' := h.one.symm
  mul' a b := (h.mul a b).symm
  div' a b := (h.div a b).symm
  pow' a n := (h.pow a n.val).symm

theorem both_builds_same (hM : SameArithmetic M) (mag : Number → M) (factor : Prefix → M) (ts : List Tok) :
    unitSystem mag factor ts = (.syntaxError : MacroResult (Defs Int M × List Diag)) ∨
    ∃ o : Option (Defs I64 M × List Diag),
      unitSystem mag factor ts = (match o with | none => .panic | some p => .done (p.1.mapEx I64.val id, p.2) : MacroResult (Defs Int M × List Diag)) ∧
      unitSystem mag factor ts = (match o with | none => .panic | some p => .done (p.1.mapEx I64.ratio id, p.2) : MacroResult (Defs Ratio M × List Diag)) := by
  have := exHom_common hM
  cases hp : parseSystem false ts with
  | none => left; unfold unitSystem; rw [show ReadExponent.rational Int = false from rfl, hp]
  | some t =>
    right
    obtain ⟨h1, t', ht⟩ := parse_rational mag hp
    refine ⟨runUnitSystem factor t', ?_, ?_⟩
    · unfold unitSystem
      rw [show ReadExponent.rational Int = false from rfl, hp]
      have := readTemplates_lift (fun x n h => read_int h) _ id t t' ht
      simp only [Function.id_comp] at this
      simp only [this]
      have := runUnitSystem_mapEx (ψ := I64.val) (φ := id) factor t'
      simp only [Function.id_comp] at this
      rw [this]
      cases runUnitSystem factor t' <;> rfl
    · unfold unitSystem
      rw [show ReadExponent.rational Ratio = true from rfl, h1]
      have := readTemplates_lift (fun x n h => read_ratio h) _ id t t' ht
      simp only [Function.id_comp] at this
      simp only [this]
      have := runUnitSystem_mapEx (ψ := I64.ratio) (φ := id) factor t'
      simp only [Function.id_comp] at this
      rw [this]
      cases runUnitSystem factor t' <;> rfl
end

/-! ### Dimension types -/

theorem mapM_option_map {α γ δ : Type} (g : α → Option γ) (g' : α → Option δ) (h : δ → γ) (l : List α) (hg : ∀ a ∈ l, g a = (g' a).map h) :
    l.mapM g = (l.mapM g').map (List.map h) := by
  have := mapM_map_option (fun a : α => a) g g' h l hg
  rwa [List.map_id'] at this

theorem find_mapPow {E E' : Type} (ψ : E → E') (l : List (Str × E)) (k : Str) :
    (l.map fun p => (p.1, ψ p.2)).find? (fun kv => kv.1 = k) = (l.find? (fun kv => kv.1 = k)).map fun p => (p.1, ψ p.2) := by
  rw [List.find?_map]; rfl

theorem dimensionExpr_asRatio {bd : List Str} {d : Dims Int} (hd : ∀ p ∈ d, IsI64 p.2) :
    dimensionExpr bd d.asRatio = (dimensionExpr bd d).map (List.map asRatio) := by
  unfold dimensionExpr
  split
  · rfl
  unfold structExpr
  have hk : (Dims.asRatio d).map Prod.fst = d.map Prod.fst := by
    unfold Dims.asRatio; rw [List.map_map]; rfl
  have hlen : (Dims.asRatio d).length = d.length := by unfold Dims.asRatio; simp
  rw [hk, hlen]
  split
  · rfl
  split
  · rfl
  refine mapM_option_map _ _ _ _ fun k _ => ?_
  rw [Dims.asRatio, find_mapPow]
  cases hf : List.find? (fun kv : Str × Int => decide (kv.1 = k)) d with
  | none => rfl
  | some p => exact ratio_new_one (hd p (List.mem_of_find?_eq_some hf))

theorem mapPow_isI64 (d : Dims I64) : ∀ p ∈ Dims.mapPow I64.val d, IsI64 p.2 := by
  intro p hp
  obtain ⟨q, -, rfl⟩ := List.mem_map.1 hp
  exact q.2.isI64

theorem dimensionExpr_isI64 {bd : List Str} {d : Dims Int} (hd : ∀ p ∈ d, IsI64 p.2) {v : DimVal Int} (h : dimensionExpr bd d = some v) : ∀ a ∈ v, IsI64 a := by
  unfold dimensionExpr structExpr at h
  split at h
  · simp at h
  split at h
  · simp at h
  split at h
  · simp at h
  intro a ha
  obtain ⟨k, -, hk⟩ := forall₂_mem_right (mapM_option_some h) ha
  split at hk
  · rename_i p v hf
    simp only [FieldOps.entry, Option.some.injEq] at hk
    subst hk
    exact hd _ (List.mem_of_find?_eq_some hf)
  · simp only [Option.some.injEq, FieldOps.zero] at hk
    subst hk; decide

/-! ### Debug -/

section
variable {K M : Type} [MagOps Int M] [MagOps Ratio M] [Prims K M] [TextPrims K M]

/-- A table entry in the build with fractions. -/
def TableUnit.asRatio (u : TableUnit Int K) : TableUnit Ratio K := ⟨u.symbol, u.dimension.map Diman.asRatio, u.magnitude⟩

theorem unitTable_asRatio (bd : List Str) (us : List (UnitDef I64 M)) :
    (unitTable M bd (us.map (UnitDef.mapEx I64.ratio id)) : Option (List (TableUnit Ratio K))) =
      (unitTable M bd (us.map (UnitDef.mapEx I64.val id))).map (List.map TableUnit.asRatio) := by
  unfold unitTable
  have e1 : ((us.map (UnitDef.mapEx I64.ratio id)).filterMap fun u => u.symbol.map fun s => (s, u)) =
      (us.filterMap fun u => u.symbol.map fun s => (s, u)).map fun p => (p.1, p.2.mapEx I64.ratio (id : M → M)) := by
    rw [List.filterMap_map, List.map_filterMap]
    congr 1; funext u
    obtain ⟨n, d, m, s, b⟩ := u
    cases s <;> rfl
  have e2 : ((us.map (UnitDef.mapEx I64.val id)).filterMap fun u => u.symbol.map fun s => (s, u)) =
      (us.filterMap fun u => u.symbol.map fun s => (s, u)).map fun p => (p.1, p.2.mapEx I64.val (id : M → M)) := by
    rw [List.filterMap_map, List.map_filterMap]
    congr 1; funext u
    obtain ⟨n, d, m, s, b⟩ := u
    cases s <;> rfl
  rw [e1, e2, List.mapM_map, List.mapM_map]
  refine mapM_option_map _ _ _ _ fun su _ => ?_
  obtain ⟨s, u⟩ := su
  show (do
      let d ← dimensionExpr bd (u.dims.mapPow I64.ratio)
      if TextPrims.finite M (Prims.into .f64 u.mag : K) then some (⟨s, d, Prims.into .f64 u.mag⟩ : TableUnit Ratio K) else none) = _
  rw [mapPow_asRatio, dimensionExpr_asRatio (mapPow_isI64 _)]
  show _ = Option.map TableUnit.asRatio (do
      let d ← dimensionExpr bd (u.dims.mapPow I64.val)
      if TextPrims.finite M (Prims.into .f64 u.mag : K) then some (⟨s, d, Prims.into .f64 u.mag⟩ : TableUnit Int K) else none)
  cases dimensionExpr bd (u.dims.mapPow I64.val) with
  | none => rfl
  | some v =>
    simp only [Option.map_some, Option.bind_eq_bind, Option.bind_some]
    split <;> rfl

theorem firstUnitFor_asRatio (tbl : List (TableUnit Int K)) (d : DimVal Int) :
    firstUnitFor (tbl.map TableUnit.asRatio) (d.map asRatio) = (firstUnitFor tbl d).map TableUnit.asRatio := by
  unfold firstUnitFor
  rw [List.find?_map]
  congr 2; funext u
  simp only [Function.comp_apply, TableUnit.asRatio, map_asRatio_inj]

theorem unitBySymbol_asRatio (tbl : List (TableUnit Int K)) (s : Str) :
    unitBySymbol (tbl.map TableUnit.asRatio) s = (unitBySymbol tbl s).map TableUnit.asRatio := by
  unfold unitBySymbol
  rw [List.find?_map]
  rfl

theorem baseSymbolText_asRatio (bd : List Str) (tbl : List (TableUnit Int K)) (b : Str) (e : Int) :
    baseSymbolText bd (tbl.map TableUnit.asRatio) b (asRatio e) = baseSymbolText bd tbl b e := by
  unfold baseSymbolText
  have h : dimensionExpr bd [(b, (Exponent.one : Ratio))] = (dimensionExpr bd [(b, (Exponent.one : Int))]).map (List.map asRatio) :=
    dimensionExpr_asRatio (bd := bd) (d := [(b, 1)]) (by intro p hp; simp at hp; subst hp; exact (by decide : IsI64 1))
  rw [h]
  cases dimensionExpr bd [(b, (Exponent.one : Int))] with
  | none => rfl
  | some v =>
    have h1 : (asRatio e = Exponent.one) ↔ e = Exponent.one := asRatio_inj (b := 1)
    have h0 : (asRatio e = Exponent.zero) ↔ e = Exponent.zero := asRatio_inj (b := 0)
    simp only [Option.map_some, Option.bind_eq_bind, Option.bind_some, h1, h0, ne_eq, firstUnitFor_asRatio]
    cases firstUnitFor tbl v <;> rfl

theorem debugUnitText_asRatio (bd : List Str) (tbl : List (TableUnit Int K)) (d : DimVal Int) :
    debugUnitText bd (tbl.map TableUnit.asRatio) (d.map asRatio) = debugUnitText bd tbl d := by
  unfold debugUnitText
  rw [firstUnitFor_asRatio]
  cases firstUnitFor tbl d with
  | some u => rfl
  | none =>
    simp only [Option.map_none]
    rw [List.zip_map_right, List.mapM_map]
    congr 1
    congr 1
    funext be
    exact baseSymbolText_asRatio bd tbl be.1 be.2

theorem debugFmt_asRatio (hM : SameArithmetic M) (p : Defs I64 M) (d : DimVal Int) (value : Str) :
    debugFmt K (p.mapEx I64.ratio (id : M → M)) (d.map asRatio) value = debugFmt K (p.mapEx I64.val (id : M → M)) d value := by
  unfold debugFmt
  have e1 : ((p.mapEx I64.ratio (id : M → M)).units.filter fun u => MagOps.isOne Ratio u.mag) =
      (p.units.filter fun u => MagOps.isOne Int u.mag).map (UnitDef.mapEx I64.ratio id) := by
    show ((p.units.map _).filter _) = _
    rw [List.filter_map]
    congr 2; funext u; exact hM.isOne u.mag
  have e2 : ((p.mapEx I64.val (id : M → M)).units.filter fun u => MagOps.isOne Int u.mag) =
      (p.units.filter fun u => MagOps.isOne Int u.mag).map (UnitDef.mapEx I64.val id) := by
    show ((p.units.map _).filter _) = _
    rw [List.filter_map]
    rfl
  rw [e1, e2]
  show (do
    let units : List (TableUnit _ K) ← unitTable M p.baseDimensions ((p.units.filter fun (u : UnitDef I64 M) => MagOps.isOne Int u.mag).map (UnitDef.mapEx I64.ratio id))
    let text ← debugUnitText p.baseDimensions units (d.map asRatio)
    return value ++ text) = _
  rw [unitTable_asRatio]
  show _ = (do
    let units : List (TableUnit _ K) ← unitTable M p.baseDimensions ((p.units.filter fun (u : UnitDef I64 M) => MagOps.isOne Int u.mag).map (UnitDef.mapEx I64.val id))
    let text ← debugUnitText p.baseDimensions units d
    return value ++ text)
  cases (unitTable M p.baseDimensions ((p.units.filter fun u => MagOps.isOne Int u.mag).map (UnitDef.mapEx I64.val id)) : Option (List (TableUnit Int K))) with
  | none => rfl
  | some tbl =>
    simp only [Option.map_some, Option.bind_eq_bind, Option.bind_some, debugUnitText_asRatio]

/-! ### serde -/

theorem map1_eq {f : Int → Option Int} {g : Ratio → Option Ratio} (h : ∀ a, g (asRatio a) = (f a).map asRatio) (d : DimVal Int) :
    DimVal.map1 g (d.map asRatio) = (DimVal.map1 f d).map (List.map asRatio) := by
  induction d with
  | nil => rfl
  | cons a d ih =>
    rw [List.map_cons, DimVal.map1, h, ih, DimVal.map1]
    cases f a with
    | none => rfl
    | some b => cases DimVal.map1 f d <;> rfl
theorem map2_eq {P : Int → Prop} {f : Int → Int → Option Int} {g : Ratio → Ratio → Option Ratio}
    (h : ∀ a b, P a → P b → g (asRatio a) (asRatio b) = (f a b).map asRatio) (d d2 : DimVal Int) (hd : ∀ a ∈ d, P a) (hd2 : ∀ a ∈ d2, P a) :
    DimVal.map2 g (d.map asRatio) (d2.map asRatio) = (DimVal.map2 f d d2).map (List.map asRatio) := by
  induction d generalizing d2 with
  | nil => cases d2 <;> rfl
  | cons a d ih =>
    cases d2 with
    | nil => rfl
    | cons b d2 =>
      rw [List.map_cons, List.map_cons, DimVal.map2, h a b (hd a (by simp)) (hd2 b (by simp)),
        ih d2 (fun a ha => hd a (by simp [ha])) (fun a ha => hd2 a (by simp [ha])), DimVal.map2]
      cases f a b with
      | none => rfl
      | some b => cases DimVal.map2 f d d2 <;> rfl

theorem mul_isI64 {d e : DimVal Int} {n : Int} (h : d.mul n = some e) : ∀ a ∈ e, IsI64 a := by
  unfold DimVal.mul at h
  induction d generalizing e with
  | nil => simp only [DimVal.map1, Option.some.injEq] at h; subst h; simp
  | cons a d ih =>
    simp only [DimVal.map1, Option.bind_eq_bind, Option.pure_def, Option.bind_eq_some_iff, Option.some.injEq] at h
    obtain ⟨b, hb, e', he, rfl⟩ := h
    intro x hx
    rcases List.mem_cons.1 hx with rfl | hx
    · obtain ⟨h1, h2⟩ := i64_some (show i64 (a * n) = some x from hb)
      rw [h1]; exact h2
    · exact ih he x hx
theorem add_isI64 {d d2 e : DimVal Int} (h : d.add d2 = some e) : ∀ a ∈ e, IsI64 a := by
  unfold DimVal.add at h
  induction d generalizing d2 e with
  | nil =>
    cases d2 with
    | nil => simp only [DimVal.map2, Option.some.injEq] at h; subst h; simp
    | cons => simp [DimVal.map2] at h
  | cons a d ih =>
    cases d2 with
    | nil => simp [DimVal.map2] at h
    | cons b d2 =>
      simp only [DimVal.map2, Option.bind_eq_bind, Option.pure_def, Option.bind_eq_some_iff, Option.some.injEq] at h
      obtain ⟨c, hc, e', he, rfl⟩ := h
      intro x hx
      rcases List.mem_cons.1 hx with rfl | hx
      · obtain ⟨h1, h2⟩ := i64_some (show i64 (a + b) = some x from hc)
        rw [h1]; exact h2
      · exact ih he x hx

/-- The dimension in a result, in the build with fractions. -/
def Outcome.asRatio : Outcome (DimVal Int × K) → Outcome (DimVal Ratio × K)
  | .ok p => .ok (p.1.map Diman.asRatio, p.2)
  | .error => .error
  | .panic => .panic

theorem readSingleUnit_asRatio (hM : SameArithmetic M) (tbl : List (TableUnit Int K)) (w : Str) :
    readSingleUnit M (tbl.map TableUnit.asRatio) w = (readSingleUnit M tbl w).asRatio := by
  unfold readSingleUnit
  cases cutUnitWord w with
  | none => rfl
  | some ue =>
    simp only [Outcome.orError, Outcome.bind, unitBySymbol_asRatio]
    cases unitBySymbol tbl ue.1 with
    | none => rfl
    | some u =>
      simp only [Option.map_some]
      have h : DimVal.mul u.asRatio.dimension ue.2 = (DimVal.mul u.dimension ue.2).map (List.map asRatio) :=
        map1_eq (f := fun a => FieldOps.mul a ue.2) (g := fun a => FieldOps.mul a ue.2) (fun a => ratio_mul) u.dimension
      rw [h]
      cases DimVal.mul u.dimension ue.2 with
      | none => rfl
      | some d =>
        simp only [Option.map_some, Outcome.orPanic, Outcome.asRatio]
        rw [show (Exponent.ofInt ue.2 : Ratio) = asRatio ue.2 from rfl, hM.pow]
        rfl

theorem readSingleUnit_isI64 {tbl : List (TableUnit Int K)} {w : Str} {df : DimVal Int × K} (h : readSingleUnit M tbl w = .ok df) : ∀ a ∈ df.1, IsI64 a := by
  unfold readSingleUnit at h
  cases h1 : cutUnitWord w with
  | none => rw [h1] at h; simp [Outcome.orError, Outcome.bind] at h
  | some ue =>
    rw [h1] at h
    simp only [Outcome.orError, Outcome.bind] at h
    cases h2 : unitBySymbol tbl ue.1 with
    | none => rw [h2] at h; simp at h
    | some u =>
      rw [h2] at h
      simp only at h
      cases h3 : DimVal.mul u.dimension ue.2 with
      | none => rw [h3] at h; simp [Outcome.orPanic] at h
      | some d =>
        rw [h3] at h
        simp only [Outcome.orPanic, Outcome.ok.injEq] at h
        rw [← h]
        exact mul_isI64 h3

theorem readUnits_asRatio (hM : SameArithmetic M) (tbl : List (TableUnit Int K)) (d : DimVal Int) (hd : ∀ a ∈ d, IsI64 a) (f : K) (ws : List Str) :
    readUnits M (tbl.map TableUnit.asRatio) (d.map asRatio) f ws = (readUnits M tbl d f ws).asRatio := by
  induction ws generalizing d f with
  | nil => rfl
  | cons w ws ih =>
    unfold readUnits
    rw [readSingleUnit_asRatio hM]
    cases h : readSingleUnit M tbl w with
    | error => rfl
    | panic => rfl
    | ok df =>
      simp only [Outcome.asRatio, Outcome.bind]
      have h2 : DimVal.add (d.map asRatio) (df.1.map asRatio) = (DimVal.add d df.1).map (List.map asRatio) :=
        map2_eq (P := IsI64) (fun a b ha hb => ratio_add ha hb) _ _ hd (readSingleUnit_isI64 h)
      rw [h2]
      cases h3 : DimVal.add d df.1 with
      | none => rfl
      | some d' => exact ih d' (add_isI64 h3) _

theorem ifDimensionsMatch_asRatio (target : DimVal Int) (r : Raw K) (d : DimVal Int) :
    ifDimensionsMatch (target.map asRatio) r (d.map asRatio) = ifDimensionsMatch target r d := by
  unfold ifDimensionsMatch; simp only [map_asRatio_inj]

theorem none_isI64 (n : Nat) : ∀ a ∈ (DimVal.none n : DimVal Int), IsI64 a := by
  intro a ha
  rw [DimVal.none, List.mem_replicate] at ha
  rw [ha.2]; decide

theorem visitStrFloat_asRatio (hM : SameArithmetic M) (n : Nat) (tbl : List (TableUnit Int K)) (t : FloatTy) (target : DimVal Int) (value : Str) :
    visitStrFloat M n (tbl.map TableUnit.asRatio) t (target.map asRatio) value = visitStrFloat M n tbl t target value := by
  unfold visitStrFloat
  cases splitWs (trim value) with
  | nil => rfl
  | cons w ws =>
    simp only
    cases (TextPrims.parseF M t w : Option K) with
    | none => rfl
    | some x =>
      simp only [Outcome.orError, Outcome.bind, ← map_none, readUnits_asRatio hM _ _ (none_isI64 n)]
      cases readUnits M tbl (DimVal.none n) (Prims.one M .f64) ws with
      | error => rfl
      | panic => rfl
      | ok df => exact ifDimensionsMatch_asRatio _ _ _

theorem visitStrVector_asRatio (hM : SameArithmetic M) (n : Nat) (tbl : List (TableUnit Int K)) (s : Storage) (target : DimVal Int) (value : Str) :
    visitStrVector M n (tbl.map TableUnit.asRatio) s (target.map asRatio) value = visitStrVector M n tbl s target value := by
  unfold visitStrVector
  simp only
  split
  · rfl
  split
  · rfl
  split
  · rfl
  cases h : (List.mapM (TextPrims.parseF M s.base) (splitWs (List.drop 1 (List.dropWhile (fun x => decide (x ≠ '(')) (List.takeWhile (fun x => decide (x ≠ ')')) (trim value))))) : Option (List K)) with
  | none => rfl
  | some x =>
    simp only [Outcome.orError, Outcome.bind, ← map_none, readUnits_asRatio hM _ _ (none_isI64 n)]
    cases readUnits M tbl (DimVal.none n) (Prims.one M .f64) (splitWs (List.drop 1 (List.dropWhile (fun x => decide (x ≠ ')')) (trim value)))) with
    | error => rfl
    | panic => rfl
    | ok df => exact ifDimensionsMatch_asRatio _ _ _

theorem deserialize_asRatio (hM : SameArithmetic M) (p : Defs I64 M) (s : Storage) (target : DimVal Int) (v : SerdeValue K) :
    deserialize M (p.mapEx I64.ratio (id : M → M)) s (target.map asRatio) v = deserialize M (p.mapEx I64.val (id : M → M)) s target v := by
  have ht := unitTable_asRatio (K := K) p.baseDimensions p.units
  have e1 : (p.mapEx I64.ratio (id : M → M)).units = p.units.map (UnitDef.mapEx I64.ratio id) := rfl
  have e2 : (p.mapEx I64.val (id : M → M)).units = p.units.map (UnitDef.mapEx I64.val id) := rfl
  have e3 : (p.mapEx I64.ratio (id : M → M)).baseDimensions = p.baseDimensions := rfl
  have e4 : (p.mapEx I64.val (id : M → M)).baseDimensions = p.baseDimensions := rfl
  cases v <;> simp only [deserialize, deserializeStr, e1, e2, e3, e4, ht] <;>
    cases (unitTable M p.baseDimensions (p.units.map (UnitDef.mapEx I64.val id)) : Option (List (TableUnit Int K))) with
    | none => rfl
    | some tbl => simp [visitStrFloat_asRatio hM, visitStrVector_asRatio hM, visitInt, visitF64, none_iff]
end

end Diman
