import Verif.Proofs.Expand
import Verif.Examples.Sample
/-!
# C07 Every resolved definition satisfies its own equation
-/
set_option linter.unusedSectionVars false
namespace Diman
open LawfulExponent

section
variable {E M : Type} [Exponent E] [LawfulExponent E] [MagOps E M]
variable {u : UnresolvedDefs E M} {defs : Defs E M} {res : BMap (ResolvedItem E M)}

theorem Accepted.dimExpo_eq (h : Accepted u defs res) {D : DimensionDef E} (hD : D ∈ defs.dimensions) (k : Str) :
    defs.dimExpo D.name k = D.dims.expo k := by
  unfold Defs.dimExpo
  rw [find?_of_nodup h.dim_nodup hD]

theorem Accepted.unit_lookup (h : Accepted u defs res) {U : UnitDef E M} (hU : U ∈ defs.units) :
    (∀ k, defs.unitExpo U.name k = U.dims.expo k) ∧ defs.magOf U.name = U.mag := by
  unfold Defs.unitExpo Defs.magOf
  rw [find?_of_nodup h.unit_nodup hU]
  exact ⟨fun _ => rfl, rfl⟩

theorem Accepted.const_lookup (h : Accepted u defs res) {C : ConstantDef E M} (hC : C ∈ defs.constants) :
    (∀ k, defs.unitExpo C.name k = C.dims.expo k) ∧ defs.magOf C.name = C.mag := by
  unfold Defs.unitExpo Defs.magOf
  have : C.name ∉ defs.units.map UnitDef.name := by
    intro hc
    obtain ⟨U, hU, he⟩ := List.mem_map.1 hc
    exact h.unit_const_disjoint hU hC he
  rw [find?_none_of_not_mem this, find?_of_nodup h.const_nodup hC]
  exact ⟨fun _ => rfl, rfl⟩

/-- What a leaf of a unit's or constant's expression was evaluated to is what the generated code contains for it. -/
theorem Accepted.leaf_unit (h : Accepted u defs res) {i} (hi : i ∈ allItems u) (hk : i.kind = .unit ∨ i.kind = .constant)
    {x : Str} (hx : x ∈ i.refs) :
    (∀ k, (leafD res (.other x)).dims.expo k = defs.unitExpo x k) ∧ (leafD res (.other x)).mag = defs.magOf x := by
  obtain ⟨dm, j, hg, ⟨U, hU, h1, h2, h3⟩ | hC⟩ := h.ref_unit hi hx hk
  · have := h.unit_lookup hU
    rw [h1] at this
    simp only [leafD, hg]
    rw [← h2, ← h3]
    exact ⟨fun k => (this.1 k).symm, this.2.symm⟩
  · have := h.const_lookup hC
    simp only [leafD, hg]
    exact ⟨fun k => (this.1 k).symm, this.2.symm⟩

theorem Accepted.leaf_dim (h : Accepted u defs res) {i} (hi : i ∈ allItems u) (hk : i.kind = .dimension ∨ i.kind = .baseUnit)
    {x : Str} (hx : x ∈ i.refs) (k : Str) : (leafD res (.other x)).dims.expo k = defs.dimExpo x k := by
  obtain ⟨d, hd, rfl, dm, hg, hD⟩ := h.ref_dim hi hx hk
  have := h.dimExpo_eq hD k
  simp only [leafD, hg]
  exact this.symm

/-- **C07.** In a unit system that is accepted without errors, every statement's name is generated with the exponents and the
conversion factor its right-hand side prescribes, in terms of the generated values of the identifiers it mentions:
* a base dimension has exponent 1 in itself and 0 elsewhere, a derived dimension the exponents of its expression;
* a base unit has the exponents of its dimension and factor one, any other unit or constant the exponents and the factor of its
  expression.
Expressions are read by `specExpo` / `specMag`. Only side condition: exponent literals are not of the form `n/0` (automatic for
integer exponents). -/
theorem C07_equations (factor : Prefix → M) (t : UnresolvedTemplates E M) (defs : Defs E M)
    (accepted : runUnitSystem factor t = some (defs, []))
    (literals : (UnresolvedTemplates.expand (MagOps.one E) factor t).GoodExponents) :
    (∀ d ∈ (UnresolvedTemplates.expand (MagOps.one E) factor t).dimensions, ∃ D ∈ defs.dimensions, D.name = d.name ∧
      ∀ k, D.dims.expo k = match d.rhs with
        | .base _ => if k = toSnakecase d.name then 1 else 0
        | .expression e => e.specExpo (Atom.expo defs.dimExpo) k) ∧
    (∀ x ∈ (UnresolvedTemplates.expand (MagOps.one E) factor t).units, ∃ U ∈ defs.units, U.name = x.name ∧
      match x.definition with
        | .base d => (∀ k, U.dims.expo k = defs.dimExpo d k) ∧ U.mag = MagOps.one E
        | .expression e => (∀ k, U.dims.expo k = e.specExpo (Atom.expo defs.unitExpo) k) ∧
            U.mag = e.specMag (Atom.mag defs.magOf)) ∧
    (∀ c ∈ (UnresolvedTemplates.expand (MagOps.one E) factor t).constants, ∃ C ∈ defs.constants, C.name = c.name ∧
      (∀ k, C.dims.expo k = c.rhs.specExpo (Atom.expo defs.unitExpo) k) ∧ C.mag = c.rhs.specMag (Atom.mag defs.magOf)) := by
  obtain ⟨res, h⟩ := accepted_of_run accepted
  refine ⟨fun d hd => ?_, fun x hx => ?_, fun c hc => ?_⟩
  · obtain ⟨dm, g, e, hD⟩ := h.dim_val hd
    have hi : Item.ofDimension d ∈ allItems _ := mem_allItems.2 (.inl ⟨d, hd, rfl⟩)
    refine ⟨_, hD, rfl, fun k => ?_⟩
    change dm.dims.expo k = _
    rw [h.expo literals hi e k]
    cases hr : d.rhs with
    | base b =>
      simp only [Item.ofDimension, hr, Expr.specExpo, Factor.specExpo, leafD, DM.dimensions, Dims.expo, Dims.get]
      by_cases hk : toSnakecase d.name = k
      · simp [hk, one_val]
      · simp [hk, Ne.symm hk]
    | expression ex =>
      have hex : (Item.ofDimension (M := M) d).expr = ex.map (Atom.mapConcrete fun _ => DM.dimensions []) := by
        simp [Item.ofDimension, hr]
      rw [hex]
      refine Expr.specExpo_congr _ _ _ _ _ fun a ha => ?_
      cases a with
      | concrete _ => rfl
      | other x =>
        refine h.leaf_dim hi (.inl rfl) ?_ k
        rw [mem_refs, hex, Expr.vals_map]
        exact List.mem_map.2 ⟨_, ha, rfl⟩
  · obtain ⟨dm, g, e, hU⟩ := h.unit_val hx
    have hi : Item.ofUnit x ∈ allItems _ := mem_allItems.2 (.inr (.inl ⟨x, hx, rfl⟩))
    refine ⟨_, hU, rfl, ?_⟩
    cases hr : x.definition with
    | base d =>
      simp only
      have hex : (Item.ofUnit x).expr = .value (.value (.other d)) := by simp [Item.ofUnit, hr]
      have hk := ofUnit_kind_base hr
      have hxr : d ∈ (Item.ofUnit x).refs := by rw [mem_refs, hex]; simp [Expr.vals, Factor.vals]
      constructor
      · intro k
        change dm.dims.expo k = _
        rw [h.expo literals hi e k, hex]
        exact h.leaf_dim hi (.inr hk) hxr k
      · -- the dimension is a base dimension, so its item is the literal `one`
        have hb : d ∈ baseOf (UnresolvedTemplates.expand (MagOps.one E) factor t).units := by
          unfold baseOf
          rw [List.mem_filterMap]
          exact ⟨x, hx, by simp [expand_base hx hr, hr]⟩
        obtain ⟨dd, hdd, hbase, hname⟩ := h.base_units.1 d hb
        obtain ⟨dm', g', e', _⟩ := h.dim_val hdd
        have hm := Expr.eval_mag _ (resolveDimensions_eval e)
        rw [hex] at hm
        simp only [Expr.map, Factor.map, Expr.specMag, Factor.specMag, leafD, ← hname, g'] at hm
        have hm' := Expr.eval_mag _ (resolveDimensions_eval e')
        change dm.mag = _
        rw [hm, hm']
        unfold DimensionEntry.isBase at hbase
        cases hrr : dd.rhs with
        | base b => simp [Item.ofDimension, hrr, Expr.map, Factor.map, Expr.specMag, Factor.specMag, leafD, DM.dimensions]
        | expression ex => rw [hrr] at hbase; simp at hbase
    | expression ex =>
      simp only
      have hex : (Item.ofUnit x).expr = ex.map (Atom.mapConcrete DM.magnitude) := by simp [Item.ofUnit, hr]
      have hk := ofUnit_kind_expression hr
      have leaf : ∀ y, Atom.other y ∈ ex.vals → y ∈ (Item.ofUnit x).refs := fun y ha => by
        rw [mem_refs, hex, Expr.vals_map]; exact List.mem_map.2 ⟨_, ha, rfl⟩
      constructor
      · intro k
        change dm.dims.expo k = _
        rw [h.expo literals hi e k, hex]
        refine Expr.specExpo_congr _ _ _ _ _ fun a ha => ?_
        cases a with
        | concrete _ => rfl
        | other y => exact (h.leaf_unit hi (.inl hk) (leaf y ha)).1 k
      · change dm.mag = _
        rw [Expr.eval_mag _ (resolveDimensions_eval e), hex, Expr.map_map]
        refine Expr.specMag_congr _ _ _ _ fun a ha => ?_
        cases a with
        | concrete _ => rfl
        | other y => exact (h.leaf_unit hi (.inl hk) (leaf y ha)).2
  · obtain ⟨dm, g, e, hC⟩ := h.const_val hc
    have hi : Item.ofConstant c ∈ allItems _ := mem_allItems.2 (.inr (.inr ⟨c, hc, rfl⟩))
    have hex : (Item.ofConstant c).expr = c.rhs.map (Atom.mapConcrete DM.magnitude) := rfl
    have leaf : ∀ y, Atom.other y ∈ c.rhs.vals → y ∈ (Item.ofConstant c).refs := fun y ha => by
      rw [mem_refs, hex, Expr.vals_map]; exact List.mem_map.2 ⟨_, ha, rfl⟩
    refine ⟨_, hC, rfl, ?_, ?_⟩
    · intro k
      change dm.dims.expo k = _
      rw [h.expo literals hi e k, hex]
      refine Expr.specExpo_congr _ _ _ _ _ fun a ha => ?_
      cases a with
      | concrete _ => rfl
      | other y => exact (h.leaf_unit hi (.inr rfl) (leaf y ha)).1 k
    · change dm.mag = _
      rw [Expr.eval_mag _ (resolveDimensions_eval e), hex, Expr.map_map]
      refine Expr.specMag_congr _ _ _ _ fun a ha => ?_
      cases a with
      | concrete _ => rfl
      | other y => exact (h.leaf_unit hi (.inr rfl) (leaf y ha)).2

end

mutual
theorem Expr.allExp_true {T E : Type} {P : E → Prop} (hP : ∀ e, P e) (e : Expr T E) : e.AllExp P := by
  cases e with
  | value f => exact Factor.allExp_true hP f
  | binary l o r => exact ⟨Expr.allExp_true hP l, Factor.allExp_true hP r⟩
theorem Factor.allExp_true {T E : Type} {P : E → Prop} (hP : ∀ e, P e) (f : Factor T E) : f.AllExp P := by
  cases f with
  | value v => trivial
  | power v e => exact hP e
  | paren e => exact Expr.allExp_true hP e
end

/-- With integer exponents the side condition of `C07_equations` always holds. -/
theorem C07_goodExponents_int {M : Type} [MagOps Int M] (u : UnresolvedDefs Int M) : u.GoodExponents := by
  have key : ∀ {B C : Type} (d : Definition Int B C), d.AllExp (Good : Int → Prop) := by
    intro B C d
    cases d with
    | base b => trivial
    | expression e => exact Expr.allExp_true (fun _ => trivial) e
  exact ⟨fun d _ => key _, fun x _ => key _, fun c _ => Expr.allExp_true (fun _ => trivial) _⟩

-- The hypotheses are met by the example system of the repository's tests (57 definitions after expansion).
section
attribute [local instance] Sample.exactMag
example : ∃ defs, runUnitSystem Sample.exactFactor Sample.sample = some (defs, []) ∧
    (UnresolvedTemplates.expand 1 Sample.exactFactor Sample.sample).GoodExponents ∧
    (UnresolvedTemplates.expand 1 Sample.exactFactor Sample.sample).units.length = 27 :=
  let ⟨defs, h⟩ := Sample.sample_accepted
  ⟨defs, h, C07_goodExponents_int _, by decide⟩
end

end Diman
