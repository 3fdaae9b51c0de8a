import Verif.Proofs.Written
import Verif.Props.C13
/-!
# C18 — The generated type of a dimension, unit or constant carries exactly its resolved exponents
`dimensionExpr bd d` is the value of the `Dimension { .. }` expression written into the generated code for exponents `d`, or `none` if
that expression does not compile.
-/
set_option linter.unusedSectionVars false
namespace Diman
section
variable {E M : Type} [Exponent E] [LawfulExponent E] [FieldOps E] [LawfulFieldOps E] [WrittenExponent E] [MagOps E M]

/-- The exponent maps of everything the unit system generates: dimensions, units, constants. -/
def Defs.allDims (D : Defs E M) : List (Dims E) :=
  D.dimensions.map DimensionDef.dims ++ D.units.map UnitDef.dims ++ D.constants.map ConstantDef.dims

theorem Accepted.allDims_spec {u : UnresolvedDefs E M} {defs : Defs E M} {res : BMap (ResolvedItem E M)} (h : Accepted u defs res)
    (hl : u.LitExponents (WrittenExponent.Ok : E → Prop)) {d : Dims E} (hd : d ∈ defs.allDims) :
    d.WF ∧ d.AllE fun k e => k ∈ baseDimensions u.dimensions ∧ WrittenExponent.Ok e := by
  have hgood : u.GoodExponents := by
    have mono : ∀ {T : Type}, (∀ e : Expr T E, e.AllExp (WrittenExponent.Ok : E → Prop) → e.AllExp LawfulExponent.Good) := by
      intro T e
      refine Expr.rec (motive_1 := fun e => e.AllExp (WrittenExponent.Ok : E → Prop) → e.AllExp LawfulExponent.Good)
        (motive_2 := fun f => f.AllExp (WrittenExponent.Ok : E → Prop) → f.AllExp LawfulExponent.Good) ?_ ?_ ?_ ?_ ?_ e
      · intro f ih; exact ih
      · intro l o r il ir h; exact ⟨il h.1, ir h.2⟩
      · intro v _; trivial
      · intro v p h; exact LawfulExponent.canon_good (WrittenExponent.ok_canon h)
      · intro e ih; exact ih
    have mono2 : ∀ {B C : Type} (x : Definition E B C), x.AllExp (WrittenExponent.Ok : E → Prop) → x.AllExp LawfulExponent.Good := by
      intro B C x hx
      cases x with
      | base _ => trivial
      | expression e => exact mono e hx
    exact ⟨fun d hd => mono2 _ (hl.1 d hd), fun x hx => mono2 _ (hl.2.1 x hx), fun c hc => mono _ (hl.2.2 c hc)⟩
  have inv : EntryInv (fun k (e : E) => k ∈ baseDimensions u.dimensions ∧ WrittenExponent.Ok e) WrittenExponent.Ok :=
    ⟨fun ha hb h => ⟨ha.1, WrittenExponent.add_ok ha.2 hb.2 h⟩, fun ha h => ⟨ha.1, WrittenExponent.neg_ok ha.2 h⟩,
      fun ha hp h => ⟨ha.1, WrittenExponent.mul_ok ha.2 hp h⟩⟩
  have key : ∀ {x r}, res.get x = some r → r.dimensions.dims.WF ∧
      r.dimensions.dims.AllE fun k e => k ∈ baseDimensions u.dimensions ∧ WrittenExponent.Ok e :=
    fun hr => ⟨h.wf hgood hr, h.allE inv (fun k hk => ⟨hk, WrittenExponent.one_ok⟩) hl hr⟩
  simp only [Defs.allDims, List.mem_append, List.mem_map] at hd
  rcases hd with (⟨D, hD, rfl⟩ | ⟨D, hD, rfl⟩) | ⟨D, hD, rfl⟩
  · obtain ⟨_, _, dm, g, rfl⟩ := h.dim_from hD; exact key g
  · obtain ⟨_, _, dm, g, rfl⟩ := h.unit_from hD; exact key g
  · obtain ⟨_, _, dm, g, rfl⟩ := h.const_from hD; exact key g

theorem Accepted.baseDims {u : UnresolvedDefs E M} {defs : Defs E M} (h : resolveDefs u = some (defs, [])) :
    defs.baseDimensions = baseDimensions u.dimensions := by
  simp only [resolveDefs, bindM_eq_some, pure_eq_some, Prod.mk.injEq] at h
  obtain ⟨_, _, _, _, _, _, _, _, h, _⟩ := h
  rw [← h]

/-- **C18.** In an accepted unit system whose base dimensions have distinct field names, the written dimension expression of every
generated dimension, unit and constant compiles, and its value has — field by field — exactly the resolved exponent; there are no
exponents outside the declared base dimensions. (Literal exponents are assumed in normal form, which is automatic for integers.) -/
theorem C18_exponents (factor : Prefix → M) (t : UnresolvedTemplates E M) (defs : Defs E M)
    (accepted : runUnitSystem factor t = some (defs, []))
    (literals : (UnresolvedTemplates.expand (MagOps.one E) factor t).LitExponents (WrittenExponent.Ok : E → Prop))
    (distinct : defs.baseDimensions.Nodup) :
    ∀ d ∈ defs.allDims, ∃ v : DimVal E, dimensionExpr defs.baseDimensions d = some v ∧
      v.vec = defs.baseDimensions.map d.expo ∧ (∀ k, k ∉ defs.baseDimensions → d.expo k = 0) := by
  obtain ⟨res, h⟩ := accepted_of_run accepted
  have hb := Accepted.baseDims accepted
  intro d hd
  obtain ⟨wf, hall⟩ := h.allDims_spec literals hd
  rw [hb] at distinct ⊢
  obtain ⟨v, hv, _, he⟩ := dimensionExpr_spec distinct wf.1 hall
  refine ⟨v, hv, he, fun k hk => ?_⟩
  unfold Dims.expo
  cases hg : d.get k with
  | none => rfl
  | some w => exact absurd (hall (k, w) (Dims.get_mem hg)).1 hk

/-- **C18.** Two generated definitions have the same dimension type if and only if they have the same exponent for every base
dimension. -/
theorem C18_same_type_iff (factor : Prefix → M) (t : UnresolvedTemplates E M) (defs : Defs E M)
    (accepted : runUnitSystem factor t = some (defs, []))
    (literals : (UnresolvedTemplates.expand (MagOps.one E) factor t).LitExponents (WrittenExponent.Ok : E → Prop))
    (distinct : defs.baseDimensions.Nodup) (d d' : Dims E) (hd : d ∈ defs.allDims) (hd' : d' ∈ defs.allDims) :
    (dimensionExpr defs.baseDimensions d : Option (DimVal E)) = dimensionExpr defs.baseDimensions d' ↔ ∀ k, d.expo k = d'.expo k := by
  obtain ⟨res, h⟩ := accepted_of_run accepted
  have hb := Accepted.baseDims accepted
  obtain ⟨v0, _, _, hz⟩ := C18_exponents factor t defs accepted literals distinct d hd
  obtain ⟨v0', _, _, hz'⟩ := C18_exponents factor t defs accepted literals distinct d' hd'
  obtain ⟨wf, hall⟩ := h.allDims_spec literals hd
  obtain ⟨wf', hall'⟩ := h.allDims_spec literals hd'
  rw [hb] at distinct hz hz' ⊢
  obtain ⟨v, hv, hc, he⟩ := dimensionExpr_spec distinct wf.1 hall
  obtain ⟨v', hv', hc', he'⟩ := dimensionExpr_spec distinct wf'.1 hall'
  rw [hv, hv', Option.some.injEq]
  constructor
  · rintro rfl k
    rw [he] at he'
    by_cases hk : k ∈ baseDimensions (UnresolvedTemplates.expand (MagOps.one E) factor t).dimensions
    · exact List.map_inj_left.1 he' k hk
    · rw [hz k hk, hz' k hk]
  · intro heq
    refine DimVal.ext hc hc' ?_
    rw [he, he']
    exact List.map_congr_left fun k _ => heq k

/-- Base dimensions whose names give the same field name are refused: the generated code does not compile (never a wrong type). -/
theorem C18_collision_refused (bd : List Str) (d : Dims E) (h : ¬ bd.Nodup) : dimensionExpr bd d = none := by
  unfold dimensionExpr; rw [if_pos h]

end

-- The hypotheses are met by the example system of the repository's tests (integer exponents need no condition on literals).
section
attribute [local instance] Sample.exactMag

theorem C18_literals_int {M : Type} (u : UnresolvedDefs Int M) : u.LitExponents (WrittenExponent.Ok : Int → Prop) := by
  have hall : ∀ {T : Type} (e : Expr T Int), e.AllExp (WrittenExponent.Ok : Int → Prop) := by
    intro T e
    refine Expr.rec (motive_1 := fun e => e.AllExp (WrittenExponent.Ok : Int → Prop))
        (motive_2 := fun f => f.AllExp (WrittenExponent.Ok : Int → Prop)) ?_ ?_ ?_ ?_ ?_ e
    · intro f ih; exact ih
    · intro l o r il ir; exact ⟨il, ir⟩
    · intro v; trivial
    · intro v p; trivial
    · intro e ih; exact ih
  refine ⟨fun d _ => ?_, fun d _ => ?_, fun c _ => hall _⟩
  · cases d.rhs with
    | base _ => trivial
    | expression e => exact hall e
  · cases d.definition with
    | base _ => trivial
    | expression e => exact hall e

example : (∃ defs, runUnitSystem Sample.exactFactor Sample.sample = some (defs, []) ∧ defs.baseDimensions.Nodup ∧
    3 < defs.allDims.length ∧
    defs.allDims.any (fun d => (dimensionExpr defs.baseDimensions d : Option (DimVal Int)) = some [2, -2, 1, 0]) = true) ∧
    (UnresolvedTemplates.expand 1 Sample.exactFactor Sample.sample).LitExponents (WrittenExponent.Ok : Int → Prop) := by
  refine ⟨?_, C18_literals_int _⟩
  obtain ⟨defs, hd⟩ := Sample.sample_accepted
  refine ⟨defs, hd, ?_⟩
  have h : (resolveDefsFuel (UnresolvedTemplates.expand 1 Sample.exactFactor Sample.sample)).map (fun p =>
      (p.1.baseDimensions, p.1.allDims)) = some (defs.baseDimensions, defs.allDims) := by
    rw [← resolveDefs_eq_fuel]
    have : resolveDefs (UnresolvedTemplates.expand 1 Sample.exactFactor Sample.sample) = some (defs, []) := hd
    rw [this]; rfl
  have h2 : ((resolveDefsFuel (UnresolvedTemplates.expand 1 Sample.exactFactor Sample.sample)).map (fun p =>
      (p.1.baseDimensions, p.1.allDims))).any (fun q => decide (q.1.Nodup ∧ 3 < q.2.length ∧
        q.2.any (fun d => (dimensionExpr q.1 d : Option (DimVal Int)) = some [2, -2, 1, 0]) = true)) = true := by decide +kernel
  rw [h] at h2
  simpa using h2
end
end Diman
