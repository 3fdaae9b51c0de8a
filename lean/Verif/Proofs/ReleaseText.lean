import Verif.Proofs.Release
/-! Exponent types of which one panics less: the text read and written. -/
set_option linter.unusedSectionVars false
namespace Diman

/-- A change of exponent type that changes neither the exponents' text nor the calculation with conversion factors. -/
class TextLift {E E' : Type} [Exponent E] [Exponent E'] [ShowExponent E] [ShowExponent E'] (M : Type) [MagOps E M] [MagOps E' M] (ψ : E → E') : Prop where
  zero : ψ Exponent.zero = Exponent.zero
  ofInt : ∀ i, ψ (Exponent.ofInt i) = Exponent.ofInt i
  showE : ∀ e, ShowExponent.showE (ψ e) = ShowExponent.showE e
  pow : ∀ (m : M) (e : E), MagOps.pow m (ψ e) = MagOps.pow m e
  isOne : ∀ m : M, MagOps.isOne E' m = MagOps.isOne E m

instance {M : Type} [MagOps Int M] : TextLift M asRelease where
  zero := rfl
  ofInt _ := rfl
  showE _ := rfl
  pow _ _ := rfl
  isOne _ := rfl
instance {M : Type} [MagOps Ratio M] : TextLift M Ratio.asRelease where
  zero := rfl
  ofInt _ := rfl
  showE _ := rfl
  pow _ _ := rfl
  isOne _ := rfl

theorem mapM_option_lift {α β β' : Type} {k : β → β'} {f : α → Option β} {g : α → Option β'} {l : List α} {r : List β}
    (hfg : ∀ a ∈ l, ∀ b, f a = some b → g a = some (k b)) (h : l.mapM f = some r) : l.mapM g = some (r.map k) := by
  induction l generalizing r with
  | nil => simp at h; subst h; rfl
  | cons a l ih =>
    rw [List.mapM_cons] at h ⊢
    simp only [Option.bind_eq_bind, Option.pure_def, Option.bind_eq_some_iff, Option.some.injEq] at h
    obtain ⟨b, hb, r', hr, rfl⟩ := h
    rw [hfg a (by simp) b hb, ih (fun a ha => hfg a (by simp [ha])) hr]
    rfl

section
variable {E E' : Type} [Exponent E] [Exponent E'] [FieldOps E] [FieldOps E'] {ψ : E → E'} [ExpLift ψ] [FieldLift ψ]

theorem dimensionExpr_carry {bd : List Str} {d : Dims E} {v : DimVal E} (h : dimensionExpr bd d = some v) :
    dimensionExpr bd (d.carry ψ) = some (v.map ψ) := by
  unfold dimensionExpr at h ⊢
  split at h
  · simp at h
  rename_i h0
  rw [if_neg h0]
  have hk : (Dims.carry ψ d).map Prod.fst = d.map Prod.fst := by unfold Dims.carry; rw [List.map_map]; rfl
  have hlen : (Dims.carry ψ d).length = d.length := by unfold Dims.carry; simp
  unfold structExpr at h ⊢
  rw [hk, hlen]
  split at h
  · simp at h
  rename_i h1
  rw [if_neg h1]
  split at h
  · simp at h
  rename_i h2
  rw [if_neg h2]
  refine mapM_option_lift (fun k _ b hb => ?_) h
  rw [Dims.carry, find_mapPow]
  cases hf : List.find? (fun kv : Str × E => decide (kv.1 = k)) d with
  | none =>
    rw [hf] at hb
    simp only [Option.some.injEq] at hb
    subst hb
    exact congrArg some FieldLift.zero.symm
  | some p =>
    rw [hf] at hb
    exact FieldLift.entry (ψ := ψ) _ _ hb
end

section
variable {E E' K M : Type} [Exponent E] [Exponent E'] [FieldOps E] [FieldOps E'] [ShowExponent E] [ShowExponent E'] [MagOps E M] [MagOps E' M]
  [Prims K M] [TextPrims K M] {ψ : E → E'} [ExpLift ψ] [FieldLift ψ] [TextLift M ψ]

/-- A table entry. -/
def TableUnit.carry (ψ : E → E') (u : TableUnit E K) : TableUnit E' K := ⟨u.symbol, u.dimension.map ψ, u.magnitude⟩

/-- A unit. -/
def UnitDef.carry (ψ : E → E') (u : UnitDef E M) : UnitDef E' M := ⟨u.name, u.dims.carry ψ, u.mag, u.symbol, u.isBase⟩

theorem unitTable_carry {bd : List Str} {us : List (UnitDef E M)} {t : List (TableUnit E K)} (h : unitTable M bd us = some t) :
    unitTable M bd (us.map (UnitDef.carry ψ)) = some (t.map (TableUnit.carry ψ)) := by
  unfold unitTable at h ⊢
  have e1 : ((us.map (UnitDef.carry ψ)).filterMap fun u => u.symbol.map fun s => (s, u)) =
      (us.filterMap fun u => u.symbol.map fun s => (s, u)).map fun p => (p.1, p.2.carry ψ) := by
    rw [List.filterMap_map, List.map_filterMap]
    congr 1; funext u
    obtain ⟨n, d, m, s, b⟩ := u
    cases s <;> rfl
  rw [e1, List.mapM_map]
  refine mapM_option_lift (fun su _ b hb => ?_) h
  simp only [Option.bind_eq_bind, Option.bind_eq_some_iff] at hb
  obtain ⟨v, hv, hb⟩ := hb
  split at hb
  · rename_i hf
    cases hb
    show (do
      let d ← dimensionExpr bd (su.2.dims.carry ψ)
      if TextPrims.finite M (Prims.into .f64 su.2.mag : K) then some (⟨su.1, d, Prims.into .f64 su.2.mag⟩ : TableUnit E' K) else none) = _
    rw [dimensionExpr_carry hv]
    simp only [Option.bind_eq_bind, Option.bind_some]
    rw [if_pos hf]; rfl
  · simp at hb

theorem firstUnitFor_carry (tbl : List (TableUnit E K)) (d : DimVal E) :
    firstUnitFor (tbl.map (TableUnit.carry ψ)) (d.map ψ) = (firstUnitFor tbl d).map (TableUnit.carry ψ) := by
  unfold firstUnitFor
  rw [List.find?_map]
  congr 2; funext u
  simp only [Function.comp_apply, TableUnit.carry, carry_dims_inj]

theorem unitBySymbol_carry (tbl : List (TableUnit E K)) (s : Str) :
    unitBySymbol (tbl.map (TableUnit.carry ψ)) s = (unitBySymbol tbl s).map (TableUnit.carry ψ) := by
  unfold unitBySymbol
  rw [List.find?_map]
  rfl

theorem baseSymbolText_carry {bd : List Str} {tbl : List (TableUnit E K)} {b : Str} {e : E} {t : Str} (hM : TextLift M ψ)
    (h : baseSymbolText bd tbl b e = some t) : baseSymbolText bd (tbl.map (TableUnit.carry ψ)) b (ψ e) = some t := by
  unfold baseSymbolText at h ⊢
  rw [Option.bind_eq_bind, Option.bind_eq_some_iff] at h
  obtain ⟨v, hv, h⟩ := h
  have h' := dimensionExpr_carry (ψ := ψ) hv
  rw [show Dims.carry ψ [(b, (Exponent.one : E))] = [(b, (Exponent.one : E'))] by rw [← ExpLift.one (ψ := ψ)]; rfl] at h'
  rw [h']
  have h1 : (ψ e = Exponent.one) ↔ e = Exponent.one := by
    rw [← ExpLift.one (ψ := ψ)]; exact ⟨ExpLift.inj _ _, fun h => by rw [h]⟩
  have h0 : (ψ e = Exponent.zero) ↔ e = Exponent.zero := by
    rw [← hM.zero]; exact ⟨ExpLift.inj _ _, fun h => by rw [h]⟩
  simp only [Option.bind_eq_bind, Option.bind_some, h1, h0, ne_eq, firstUnitFor_carry, hM.showE] at h ⊢
  rw [← h]
  cases firstUnitFor tbl v <;> rfl

theorem debugUnitText_carry {bd : List Str} {tbl : List (TableUnit E K)} {d : DimVal E} {t : Str} (hM : TextLift M ψ)
    (h : debugUnitText bd tbl d = some t) : debugUnitText bd (tbl.map (TableUnit.carry ψ)) (d.map ψ) = some t := by
  unfold debugUnitText at h ⊢
  rw [firstUnitFor_carry]
  cases hf : firstUnitFor tbl d with
  | some u => rw [hf] at h; exact h
  | none =>
    rw [hf] at h
    simp only [Option.map_none, Option.map_eq_some_iff] at h ⊢
    obtain ⟨ts, h, rfl⟩ := h
    refine ⟨ts, ?_, rfl⟩
    rw [List.zip_map_right, List.mapM_map]
    have := mapM_option_lift (k := id) (g := fun be : Str × E => baseSymbolText bd (tbl.map (TableUnit.carry ψ)) be.1 (ψ be.2)) (fun a _ b hb => baseSymbolText_carry hM hb) h
    rw [List.map_id] at this
    exact this

theorem debugFmt_carry {p : Defs E M} {p' : Defs E' M} (hp : CarriedDefs ψ p p') {d : DimVal E} {value t : Str} (h : debugFmt K p d value = some t) :
    debugFmt K p' (d.map ψ) value = some t := by
  have hM : TextLift M ψ := inferInstance
  unfold debugFmt at h ⊢
  simp only [Option.bind_eq_bind, Option.pure_def, Option.bind_eq_some_iff, Option.some.injEq] at h ⊢
  obtain ⟨tbl, ht, x, hx, rfl⟩ := h
  refine ⟨tbl.map (TableUnit.carry ψ), ?_, x, ?_, rfl⟩
  · have e1 : (p'.units.filter fun u => MagOps.isOne E' u.mag) = (p.units.filter fun u => MagOps.isOne E u.mag).map (UnitDef.carry ψ) := by
      rw [hp.units, List.filter_map]
      congr 2; funext u; exact hM.isOne u.mag
    rw [e1, hp.baseDimensions]
    exact unitTable_carry ht
  · rw [hp.baseDimensions]
    exact debugUnitText_carry hM hx

/-! ### serde -/

/-- Agreement wherever the first does not panic. -/
def Outcome.Agree {α α' : Type} (k : α → α') : Outcome α → Outcome α' → Prop
  | .ok a, o => o = .ok (k a)
  | .error, o => o = .error
  | .panic, _ => True

theorem Outcome.agree_bind {α α' β β' : Type} {k : α → α'} {k' : β → β'} {o : Outcome α} {o' : Outcome α'} {f : α → Outcome β} {f' : α' → Outcome β'}
    (h : Outcome.Agree k o o') (hf : ∀ a, Outcome.Agree k' (f a) (f' (k a))) : Outcome.Agree k' (o.bind f) (o'.bind f') := by
  cases o with
  | ok a => rw [show o' = .ok (k a) from h]; exact hf a
  | error => rw [show o' = .error from h]; exact rfl
  | panic => trivial

theorem Outcome.agree_panic {α α' : Type} {k : α → α'} {o : Option α} {o' : Option α'} (h : ∀ a, o = some a → o' = some (k a)) :
    Outcome.Agree k (Outcome.orPanic o) (Outcome.orPanic o') := by
  cases o with
  | none => trivial
  | some a => rw [h a rfl]; exact rfl

theorem Outcome.agree_refl {α : Type} (o : Outcome α) : Outcome.Agree id o o := by cases o <;> first | rfl | trivial

theorem readSingleUnit_carry (tbl : List (TableUnit E K)) (w : Str) :
    Outcome.Agree (fun p => (p.1.map ψ, p.2)) (readSingleUnit M tbl w) (readSingleUnit M (tbl.map (TableUnit.carry ψ)) w) := by
  have hM : TextLift M ψ := inferInstance
  unfold readSingleUnit
  refine Outcome.agree_bind (Outcome.agree_refl _) fun ue => ?_
  rw [unitBySymbol_carry]
  simp only [id]
  cases unitBySymbol tbl ue.1 with
  | none => exact rfl
  | some u =>
    simp only [Option.map_some, Outcome.orError]
    show Outcome.Agree _ ((Outcome.orPanic _).bind _) ((Outcome.orPanic _).bind _)
    refine Outcome.agree_bind (Outcome.agree_panic (k := List.map ψ) fun d hd => dmul_lift hd) fun d => ?_
    show _ = _
    simp only [← hM.ofInt, hM.pow]
    rfl

theorem readUnits_carry (tbl : List (TableUnit E K)) (d : DimVal E) (f : K) (ws : List Str) :
    Outcome.Agree (fun p => (p.1.map ψ, p.2)) (readUnits M tbl d f ws) (readUnits M (tbl.map (TableUnit.carry ψ)) (d.map ψ) f ws) := by
  induction ws generalizing d f with
  | nil => exact rfl
  | cons w ws ih =>
    unfold readUnits
    refine Outcome.agree_bind (readSingleUnit_carry tbl w) fun df => ?_
    refine Outcome.agree_bind (Outcome.agree_panic (k := List.map ψ) fun d hd => dadd_lift hd) fun d => ?_
    exact ih _ _

theorem ifDimensionsMatch_carry (target : DimVal E) (r : Raw K) (d : DimVal E) :
    ifDimensionsMatch (target.map ψ) r (d.map ψ) = ifDimensionsMatch target r d := by
  unfold ifDimensionsMatch; simp only [carry_dims_inj]

theorem visitStrFloat_carry (n : Nat) (tbl : List (TableUnit E K)) (t : FloatTy) (target : DimVal E) (value : Str) :
    Outcome.Agree id (visitStrFloat M n tbl t target value) (visitStrFloat M n (tbl.map (TableUnit.carry ψ)) t (target.map ψ) value) := by
  unfold visitStrFloat
  cases splitWs (trim value) with
  | nil => exact rfl
  | cons w ws =>
    refine Outcome.agree_bind (Outcome.agree_refl _) fun x => ?_
    rw [← carry_none (ψ := ψ)]
    refine Outcome.agree_bind (readUnits_carry _ _ _ _) fun df => ?_
    simp only [ifDimensionsMatch_carry]
    exact Outcome.agree_refl _

theorem visitStrVector_carry (n : Nat) (tbl : List (TableUnit E K)) (s : Storage) (target : DimVal E) (value : Str) :
    Outcome.Agree id (visitStrVector M n tbl s target value) (visitStrVector M n (tbl.map (TableUnit.carry ψ)) s (target.map ψ) value) := by
  unfold visitStrVector
  simp only
  split
  · exact rfl
  split
  · exact rfl
  split
  · exact rfl
  refine Outcome.agree_bind (Outcome.agree_refl _) fun x => ?_
  rw [← carry_none (ψ := ψ)]
  refine Outcome.agree_bind (readUnits_carry _ _ _ _) fun df => ?_
  simp only [ifDimensionsMatch_carry]
  exact Outcome.agree_refl _

theorem deserialize_carry {p : Defs E M} {p' : Defs E' M} (hp : CarriedDefs ψ p p') {s : Storage} {target : DimVal E} {v : SerdeValue K} {o : Outcome (Raw K)}
    (h : deserialize M p s target v = some o) (ho : o ≠ .panic) : deserialize M p' s (target.map ψ) v = some o := by
  have hu : p'.units = p.units.map (UnitDef.carry ψ) := hp.units
  have key : ∀ {o o' : Outcome (Raw K)}, Outcome.Agree id o o' → o ≠ .panic → o' = o := by
    intro o o' h1 h2
    cases o with
    | ok a => exact h1
    | error => exact h1
    | panic => exact absurd rfl h2
  cases v
  case str value =>
    simp only [deserialize, deserializeStr] at h ⊢
    rw [Option.bind_eq_bind, Option.bind_eq_some_iff] at h
    obtain ⟨tbl, ht, h⟩ := h
    rw [hu, hp.baseDimensions, unitTable_carry ht]
    simp only [Option.bind_eq_bind, Option.bind_some]
    split at h <;> rename_i hs <;> simp only [Option.pure_def, Option.some.injEq] at h <;> subst h
    · rw [if_pos hs]; exact congrArg some (key (visitStrFloat_carry _ _ _ _ _) ho)
    · rw [if_neg hs]; exact congrArg some (key (visitStrVector_carry _ _ _ _ _) ho)
  all_goals
    simp only [deserialize] at h ⊢
    rw [Option.bind_eq_bind, Option.bind_eq_some_iff] at h
    obtain ⟨tbl, ht, h⟩ := h
    rw [hu, hp.baseDimensions, unitTable_carry ht]
    simp only [Option.bind_eq_bind, Option.bind_some]
    refine Eq.trans ?_ h
    first | rfl | simp only [visitInt, visitF64, carry_none_iff]
end

end Diman
