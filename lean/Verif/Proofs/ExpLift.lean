import Verif.Proofs.ExpMap
/-! What the resolver does with one arithmetic of exponents it also does with an arithmetic that panics less. -/
set_option linter.unusedSectionVars false
namespace Diman
variable {E E' M M' : Type} [Exponent E] [Exponent E'] [MagOps E M] [MagOps E' M'] {ψ : E → E'} {φ : M → M'} [ExpLift ψ]

theorem Dims.lift_addEntry {d : Dims E} {k : Str} {v : E} {r : Dims E} (h : Dims.addEntry d k v = some r) :
    Dims.addEntry (Dims.mapPow ψ d) k (ψ v) = some (Dims.mapPow ψ r) := by
  induction d generalizing r with
  | nil => simp only [Dims.addEntry, Option.some.injEq] at h; subst h; rfl
  | cons p m ih =>
    obtain ⟨k', v'⟩ := p
    show Dims.addEntry ((k', ψ v') :: Dims.mapPow ψ m) k (ψ v) = _
    simp only [Dims.addEntry] at h ⊢
    split at h
    · rename_i hk
      rw [if_pos hk]
      simp only [Option.bind_eq_bind, Option.pure_def, Option.bind_eq_some_iff, Option.some.injEq] at h
      obtain ⟨c, hc, rfl⟩ := h
      rw [ExpLift.add _ _ _ hc]; rfl
    · rename_i hk
      rw [if_neg hk]
      simp only [Option.bind_eq_bind, Option.pure_def, Option.bind_eq_some_iff, Option.some.injEq] at h
      obtain ⟨c, hc, rfl⟩ := h
      rw [ih hc]; rfl
theorem Dims.lift_mul {a b r : Dims E} (h : Dims.mul a b = some r) :
    Dims.mul (Dims.mapPow ψ a) (Dims.mapPow ψ b) = some (Dims.mapPow ψ r) := by
  induction b generalizing a with
  | nil => simp only [Dims.mul, Option.some.injEq] at h; subst h; rfl
  | cons p m ih =>
    obtain ⟨k', v'⟩ := p
    show Dims.mul (Dims.mapPow ψ a) ((k', ψ v') :: Dims.mapPow ψ m) = _
    simp only [Dims.mul, Option.bind_eq_bind, Option.bind_eq_some_iff] at h ⊢
    obtain ⟨c, hc, h⟩ := h
    exact ⟨_, Dims.lift_addEntry hc, ih h⟩
theorem Dims.lift_inv {a r : Dims E} (h : Dims.inv a = some r) : Dims.inv (Dims.mapPow ψ a) = some (Dims.mapPow ψ r) := by
  induction a generalizing r with
  | nil => simp only [Dims.inv, Option.some.injEq] at h; subst h; rfl
  | cons p m ih =>
    obtain ⟨k', v'⟩ := p
    show Dims.inv ((k', ψ v') :: Dims.mapPow ψ m) = _
    simp only [Dims.inv, Option.bind_eq_bind, Option.pure_def, Option.bind_eq_some_iff, Option.some.injEq] at h ⊢
    obtain ⟨c, hc, d, hd, rfl⟩ := h
    exact ⟨_, ExpLift.neg _ _ hc, _, ih hd, rfl⟩
theorem Dims.lift_div {a b r : Dims E} (h : Dims.div a b = some r) :
    Dims.div (Dims.mapPow ψ a) (Dims.mapPow ψ b) = some (Dims.mapPow ψ r) := by
  unfold Dims.div at h ⊢
  simp only [Option.bind_eq_bind, Option.bind_eq_some_iff] at h ⊢
  obtain ⟨c, hc, h⟩ := h
  exact ⟨_, Dims.lift_inv hc, Dims.lift_mul h⟩
theorem Dims.lift_pow {x : E} {a r : Dims E} (h : Dims.pow x a = some r) :
    Dims.pow (ψ x) (Dims.mapPow ψ a) = some (Dims.mapPow ψ r) := by
  induction a generalizing r with
  | nil => simp only [Dims.pow, Option.some.injEq] at h; subst h; rfl
  | cons p m ih =>
    obtain ⟨k', v'⟩ := p
    show Dims.pow (ψ x) ((k', ψ v') :: Dims.mapPow ψ m) = _
    simp only [Dims.pow, Option.bind_eq_bind, Option.pure_def, Option.bind_eq_some_iff, Option.some.injEq] at h ⊢
    obtain ⟨c, hc, d, hd, rfl⟩ := h
    exact ⟨_, ExpLift.mul _ _ _ hc, _, ih hd, rfl⟩

variable [ExHom ψ φ]

mutual
theorem Expr.eval_lift (e : Expr (DM E M) E) (r : DM E M) (h : e.eval = some r) :
    ((e.map (DM.mapEx ψ φ)).mapPow ψ).eval = some (r.mapEx ψ φ) := by
  match e with
  | .value v => simp only [Expr.eval] at h; simp [Expr.map, Expr.mapPow, Expr.eval, Factor.eval_lift v r h]
  | .binary l o r' =>
    simp only [Expr.eval, Option.bind_eq_bind, Option.bind_eq_some_iff] at h
    obtain ⟨a, ha, b, hb, h⟩ := h
    simp only [Expr.map, Expr.mapPow, Expr.eval, Factor.eval_lift r' b hb, Expr.eval_lift l a ha, Option.bind_eq_bind, Option.bind_some]
    cases o with
    | mul =>
      simp only [MulDiv.mul, Option.bind_eq_bind, Option.pure_def, Option.bind_eq_some_iff, Option.some.injEq] at h ⊢
      obtain ⟨c, hc, rfl⟩ := h
      exact ⟨_, Dims.lift_mul hc, by simp only [DM.mapEx, ExHom.mul' (ψ := ψ) (φ := φ)]⟩
    | div =>
      simp only [MulDiv.div, Option.bind_eq_bind, Option.pure_def, Option.bind_eq_some_iff, Option.some.injEq] at h ⊢
      obtain ⟨c, hc, rfl⟩ := h
      exact ⟨_, Dims.lift_div hc, by simp only [DM.mapEx, ExHom.div' (ψ := ψ) (φ := φ)]⟩
theorem Factor.eval_lift (e : Factor (DM E M) E) (r : DM E M) (h : e.eval = some r) :
    ((e.map (DM.mapEx ψ φ)).mapPow ψ).eval = some (r.mapEx ψ φ) := by
  match e with
  | .value v => simp only [Factor.eval, Option.some.injEq] at h; subst h; rfl
  | .power v x =>
    simp only [Factor.eval, MulDiv.pow, Option.bind_eq_bind, Option.pure_def, Option.bind_eq_some_iff, Option.some.injEq] at h
    obtain ⟨c, hc, rfl⟩ := h
    simp only [Factor.map, Factor.mapPow, Factor.eval, MulDiv.pow, Option.bind_eq_bind, Option.pure_def, Option.bind_eq_some_iff, Option.some.injEq]
    exact ⟨_, Dims.lift_pow hc, by simp only [DM.mapEx, ExHom.pow' (ψ := ψ) (φ := φ)]⟩
  | .paren e => simp only [Factor.eval] at h; simp [Factor.map, Factor.mapPow, Factor.eval, Expr.eval_lift e r h]
end

theorem resolveDimensions_lift {res : BMap (ResolvedItem E M)} {i : Item E M} {d : DM E M} (h : resolveDimensions res i = some d) :
    resolveDimensions (res.mapEx ψ φ) (i.mapEx ψ φ) = some (d.mapEx ψ φ) := by
  rw [resolveDimensions_def] at h ⊢
  have : (i.mapEx ψ φ).expr.mapM (leafOf (res.mapEx ψ φ)) = (i.expr.mapM (leafOf res)).map (fun e => (Expr.map (DM.mapEx ψ φ) e).mapPow ψ) := by
    rw [Item.mapEx, Expr.mapM_mapPow, Expr.mapM_map, ← Function.comp_def (f := Expr.mapPow ψ), ← Option.map_map, ← Expr.map_mapM]
    congr 2; funext a
    cases a with
    | concrete c => rfl
    | other x =>
      simp only [Atom.mapConcrete, leafOf, BMap.mapEx_get, Option.map_map]
      rfl
  rw [this]
  cases hm : i.expr.mapM (leafOf res) with
  | none => rw [hm] at h; cases h
  | some e => rw [hm] at h; exact Expr.eval_lift e d h

theorem resolveLoop_lift {l : List (Item E M)} {res : BMap (ResolvedItem E M)} {p : BMap (ResolvedItem E M) × List Diag}
    (h : resolveLoop l res = some p) : resolveLoop (l.map (Item.mapEx ψ φ)) (res.mapEx ψ φ) = some (p.1.mapEx ψ φ, p.2) := by
  obtain ⟨n, hn⟩ : ∃ n, l.length = n := ⟨_, rfl⟩
  induction n generalizing l res with
  | zero =>
    have : l = [] := List.eq_nil_of_length_eq_zero hn
    subst this
    rw [resolveLoop] at h ⊢
    simp at h; subst h; rfl
  | succ n ih =>
    rw [resolveLoop] at h ⊢
    have he : (l.map (Item.mapEx ψ φ)).isEmpty = l.isEmpty := by cases l <;> rfl
    rw [he]
    cases hl : l.isEmpty with
    | true => rw [hl] at h; simp at h; subst h; simp
    | false =>
      rw [hl] at h
      simp only [Bool.false_eq_true, if_false] at h ⊢
      have hts := takeResolvable_mapEx (ψ := ψ) (φ := φ) res l
      split
      · rename_i x rest ht
        rw [ht] at hts
        cases ht' : takeResolvable res l with
        | none => rw [ht'] at hts; simp at hts
        | some p' =>
          obtain ⟨x', rest'⟩ := p'
          rw [ht'] at hts
          simp only [Option.map_some, Option.some.injEq, Prod.mk.injEq] at hts
          obtain ⟨rfl, rfl⟩ := hts
          split at h
          swap
          · rename_i h0; rw [ht'] at h0; cases h0
          rename_i x2 rest2 h0
          rw [ht'] at h0
          simp only [Option.some.injEq, Prod.mk.injEq] at h0
          obtain ⟨rfl, rfl⟩ := h0
          simp only [Option.bind_eq_bind, Option.bind_eq_some_iff] at h ⊢
          obtain ⟨d, hd, h⟩ := h
          refine ⟨_, resolveDimensions_lift hd, ?_⟩
          have := ih h (by have := takeResolvable_length ht'; omega)
          rw [← this, BMap.mapEx_insert, Item.mapEx_ident]; rfl
      · rename_i ht
        rw [ht] at hts
        cases ht' : takeResolvable res l with
        | some p => rw [ht'] at hts; simp at hts
        | none =>
          split at h
          · rename_i h0; rw [ht'] at h0; cases h0
          simp only [Option.some.injEq] at h
          subst h
          simp [Function.comp_def]

theorem resolveItems_lift {l : List (Item E M)} {p : BMap (ResolvedItem E M) × List Diag} (h : resolveItems l = some p) :
    resolveItems (l.map (Item.mapEx ψ φ)) = some (p.1.mapEx ψ φ, p.2) := by
  unfold resolveItems at h ⊢
  simp only [filterUndefined_mapEx, filterAutogenerated_mapEx, multiplyDefined_mapEx, checkKinds_mapEx]
  simp only [Option.bind_eq_bind, Option.bind_eq_some_iff, Option.pure_def, Option.some.injEq] at h ⊢
  obtain ⟨q, hq, rfl⟩ := h
  refine ⟨_, resolveLoop_lift (ψ := ψ) (φ := φ) hq, ?_⟩
  simp [checkAnnotations_mapEx]

/-- Resolution succeeds, with the same outcome. -/
theorem resolveDefs_lift {u : UnresolvedDefs E M} {p : Defs E M × List Diag} (h : resolveDefs u = some p) :
    resolveDefs (u.mapEx ψ φ) = some (p.1.mapEx ψ φ, p.2) := by
  unfold resolveDefs at h ⊢
  rw [allItems_mapEx]
  have h1 : (u.mapEx ψ φ).units = u.units.map (UnitEntry.mapEx ψ φ) := rfl
  have h2 := baseEntries_mapEx (ψ := ψ) u.dimensions id
  have h3 := baseEntries_mapEx (ψ := ψ) u.dimensions toSnakecase
  simp only [h1, checkBaseUnits_mapEx, checkSymbols_mapEx]
  cases hr : resolveItems (allItems u) with
  | none => rw [hr] at h; simp at h
  | some q =>
    rw [hr] at h
    rw [resolveItems_lift hr]
    obtain ⟨res, ds⟩ := q
    simp only [Option.bind_eq_bind, Option.bind_some, getDimensions_mapEx, getUnits_mapEx, getConstants_mapEx] at h ⊢
    cases hd : getDimensions res with
    | none => rw [hd] at h; simp at h
    | some a =>
      cases hu : getUnits res with
      | none => rw [hd, hu] at h; simp at h
      | some b =>
        cases hc : getConstants res with
        | none => rw [hd, hu, hc] at h; simp at h
        | some c =>
          rw [hd, hu, hc] at h
          simp only [Option.bind_some, Option.pure_def, Option.some.injEq] at h
          subst h
          simp only [Option.map_some, Option.bind_some, checkBaseSymbols_mapEx, Option.pure_def, Option.some.injEq]
          simp only [baseDimensions, UnresolvedDefs.mapEx, h3, show ((u.dimensions.map (DimensionEntry.mapEx ψ)).filter DimensionEntry.isBase).map DimensionEntry.name = (u.dimensions.filter DimensionEntry.isBase).map DimensionEntry.name from h2]
          rfl

theorem runUnitSystem_lift {factor : Prefix → M} {t : UnresolvedTemplates E M} {p : Defs E M × List Diag} (h : runUnitSystem factor t = some p) :
    runUnitSystem (φ ∘ factor) (t.mapEx ψ φ) = some (p.1.mapEx ψ φ, p.2) := by
  unfold runUnitSystem at h ⊢
  rw [← resolveDefs_lift h, ← expand_mapEx, ExHom.one' (ψ := ψ) (φ := φ)]

end Diman
