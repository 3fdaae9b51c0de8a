import Verif.Spec.Release
import Verif.Proofs.Generated
import Verif.Proofs.Expand
/-! Wrapping exponents are the true ones modulo 2^64. -/
set_option linter.unusedSectionVars false
namespace Diman

theorem wrap64_isI64 (x : Int) : IsI64 (wrap64 x) := by
  unfold IsI64 wrap64 i64Min i64Max; omega
theorem wrap64_modEq (x : Int) : wrap64 x ≡ x [ZMOD 18446744073709551616] := by
  unfold wrap64 Int.ModEq; omega

namespace Dims
theorem powerOf_cons (k : Str) (v : RelInt) (d : Dims RelInt) (k' : Str) : powerOf ((k, v) :: d) k' = if k = k' then v.val else d.powerOf k' := by
  unfold powerOf
  rw [show get ((k, v) :: d) k' = if k = k' then some v else get d k' from rfl]
  by_cases h : k = k'
  · rw [if_pos h, if_pos h]
  · rw [if_neg h, if_neg h]
theorem powerOf_of_not_mem {d : Dims RelInt} {k : Str} (h : k ∉ d.map Prod.fst) : d.powerOf k = 0 := by
  unfold powerOf; rw [get_none_iff.2 h]

/-- No key twice, and right up to wrapping. -/
def Ok (d : Dims RelInt) (f : Str → Int) : Prop := (d.map Prod.fst).Nodup ∧ d.Wrapped f

theorem addEntry_ok {d d' : Dims RelInt} {k : Str} {v : RelInt} (hn : (d.map Prod.fst).Nodup) (hi : ∀ k, IsI64 (d.powerOf k)) (hv : IsI64 v.val)
    (h : d.addEntry k v = some d') :
    (d'.map Prod.fst).Nodup ∧ ∀ k', IsI64 (d'.powerOf k') ∧ d'.powerOf k' ≡ d.powerOf k' + (if k = k' then v.val else 0) [ZMOD 18446744073709551616] := by
  obtain ⟨h1, h2⟩ := addEntry_spec h
  cases hg : d.get k with
  | none =>
    rw [hg] at h2
    obtain ⟨h2, h3⟩ := h2
    refine ⟨?_, fun k' => ?_⟩
    · rw [h3, List.nodup_append]
      refine ⟨hn, by simp, ?_⟩
      intro a ha b hb
      simp only [List.mem_singleton] at hb
      subst hb; rintro rfl; exact get_none_iff.1 hg ha
    · by_cases hk : k = k'
      · subst hk
        unfold powerOf; rw [h2, hg]; simp [hv]
      · have := h1 k' (Ne.symm hk)
        have e : d'.powerOf k' = d.powerOf k' := by unfold powerOf; rw [this]
        rw [e, if_neg hk, add_zero]
        exact ⟨hi k', rfl⟩
  | some w =>
    rw [hg] at h2
    obtain ⟨x, hx, h2, h3⟩ := h2
    refine ⟨by rw [h3]; exact hn, fun k' => ?_⟩
    by_cases hk : k = k'
    · subst hk
      unfold powerOf; rw [h2, hg, if_pos rfl]
      simp only [Exponent.add, Option.some.injEq] at hx
      subst hx
      exact ⟨wrap64_isI64 _, wrap64_modEq _⟩
    · have := h1 k' (Ne.symm hk)
      have e : d'.powerOf k' = d.powerOf k' := by unfold powerOf; rw [this]
      rw [e, if_neg hk, add_zero]
      exact ⟨hi k', rfl⟩

theorem mul_ok {a b c : Dims RelInt} (ha : (a.map Prod.fst).Nodup) (hai : ∀ k, IsI64 (a.powerOf k)) (hb : (b.map Prod.fst).Nodup)
    (hbi : ∀ k, IsI64 (b.powerOf k)) (h : a.mul b = some c) :
    (c.map Prod.fst).Nodup ∧ ∀ k, IsI64 (c.powerOf k) ∧ c.powerOf k ≡ a.powerOf k + b.powerOf k [ZMOD 18446744073709551616] := by
  induction b generalizing a with
  | nil =>
    simp only [mul, Option.some.injEq] at h; subst h
    exact ⟨ha, fun k => ⟨hai k, by simp [powerOf, get]⟩⟩
  | cons kv b ih =>
    obtain ⟨k, v⟩ := kv
    simp only [mul, bindM_eq_some] at h
    obtain ⟨a', h1, h2⟩ := h
    simp only [List.map_cons, List.nodup_cons] at hb
    have hv : IsI64 v.val := by have := hbi k; rwa [powerOf_cons, if_pos rfl] at this
    obtain ⟨n1, i1⟩ := addEntry_ok ha hai hv h1
    have hbi' : ∀ k, IsI64 (powerOf b k) := by
      intro k'
      by_cases hk : k = k'
      · subst hk; rw [powerOf_of_not_mem hb.1]; decide
      · have := hbi k'; rwa [powerOf_cons, if_neg hk] at this
    obtain ⟨n2, i2⟩ := ih n1 (fun k => (i1 k).1) hb.2 hbi' h2
    refine ⟨n2, fun k' => ⟨(i2 k').1, ((i2 k').2.trans ((i1 k').2.add_right _)).trans ?_⟩⟩
    rw [powerOf_cons]
    by_cases hk : k = k'
    · subst hk; rw [if_pos rfl, if_pos rfl, powerOf_of_not_mem hb.1, add_zero]
    · rw [if_neg hk, if_neg hk, add_zero]

theorem inv_ok {a c : Dims RelInt} (h : a.inv = some c) : ∀ k, IsI64 (c.powerOf k) ∧ c.powerOf k ≡ -a.powerOf k [ZMOD 18446744073709551616] := by
  induction a generalizing c with
  | nil =>
    simp only [inv, Option.some.injEq] at h; subst h
    intro k; exact ⟨by simp only [powerOf, get]; decide, by simp [powerOf, get]⟩
  | cons kv a ih =>
    obtain ⟨k0, v⟩ := kv
    simp only [inv, bindM_eq_some, pure_eq_some] at h
    obtain ⟨x, hx, y, hy, h⟩ := h
    subst h
    simp only [Exponent.neg, Option.some.injEq] at hx
    subst hx
    intro k
    rw [powerOf_cons, powerOf_cons]
    split
    · exact ⟨wrap64_isI64 _, wrap64_modEq _⟩
    · exact ih hy k

theorem pow_ok {p : RelInt} {a c : Dims RelInt} (h : a.pow p = some c) : ∀ k, IsI64 (c.powerOf k) ∧ c.powerOf k ≡ a.powerOf k * p.val [ZMOD 18446744073709551616] := by
  induction a generalizing c with
  | nil =>
    simp only [pow, Option.some.injEq] at h; subst h
    intro k; exact ⟨by simp only [powerOf, get]; decide, by simp [powerOf, get]⟩
  | cons kv a ih =>
    obtain ⟨k0, v⟩ := kv
    simp only [pow, bindM_eq_some, pure_eq_some] at h
    obtain ⟨x, hx, y, hy, h⟩ := h
    subst h
    simp only [Exponent.mul, Option.some.injEq] at hx
    subst hx
    intro k
    rw [powerOf_cons, powerOf_cons]
    split
    · exact ⟨wrap64_isI64 _, wrap64_modEq _⟩
    · exact ih hy k
end Dims

section
variable {M : Type} [MagOps RelInt M]

mutual
theorem Expr.eval_modulo {T : Type} (g : T → DM RelInt M) (ρ : T → Str → Int) (e : Expr T RelInt) (hl : ∀ a ∈ e.vals, (g a).dims.Ok (ρ a)) {r : DM RelInt M}
    (h : (e.map g).eval = some r) : r.dims.Ok fun k => e.exactPower (ρ · k) := by
  cases e with
  | value f => exact Factor.eval_modulo g ρ f hl h
  | binary l o f =>
    simp only [Expr.map, Expr.eval, bindM_eq_some] at h
    obtain ⟨a, ha, b, hb, h⟩ := h
    obtain ⟨a1, a2⟩ := Expr.eval_modulo g ρ l (fun x hx => hl x (by simp [Expr.vals, hx])) ha
    obtain ⟨b1, b2⟩ := Factor.eval_modulo g ρ f (fun x hx => hl x (by simp [Expr.vals, hx])) hb
    cases o with
    | mul =>
      obtain ⟨c1, c2⟩ := Dims.mul_ok a1 (fun k => (a2 k).1) b1 (fun k => (b2 k).1) (dm_mul_some h).1
      exact ⟨c1, fun k => ⟨(c2 k).1, (c2 k).2.trans ((a2 k).2.add (b2 k).2)⟩⟩
    | div =>
      have h := (dm_div_some h).1
      simp only [Dims.div, bindM_eq_some] at h
      obtain ⟨b', hb', h⟩ := h
      have i := Dims.inv_ok hb'
      obtain ⟨c1, c2⟩ := Dims.mul_ok a1 (fun k => (a2 k).1) (by rw [Dims.inv_keys hb']; exact b1) (fun k => (i k).1) h
      refine ⟨c1, fun k => ⟨(c2 k).1, (c2 k).2.trans ?_⟩⟩
      have := (a2 k).2.add ((i k).2.trans (b2 k).2.neg)
      simpa [Expr.exactPower, sub_eq_add_neg] using this
theorem Factor.eval_modulo {T : Type} (g : T → DM RelInt M) (ρ : T → Str → Int) (f : Factor T RelInt) (hl : ∀ a ∈ f.vals, (g a).dims.Ok (ρ a)) {r : DM RelInt M}
    (h : (f.map g).eval = some r) : r.dims.Ok fun k => f.exactPower (ρ · k) := by
  cases f with
  | value v =>
    simp only [Factor.map, Factor.eval, Option.some.injEq] at h; subst h
    exact hl v (by simp [Factor.vals])
  | power v e =>
    simp only [Factor.map, Factor.eval] at h
    obtain ⟨v1, v2⟩ := hl v (by simp [Factor.vals])
    have hp := (dm_pow_some h).1
    have i := Dims.pow_ok hp
    exact ⟨by rw [Dims.pow_keys hp]; exact v1, fun k => ⟨(i k).1, (i k).2.trans ((v2 k).2.mul_right _)⟩⟩
  | paren e => exact Expr.eval_modulo g ρ e hl h
end

mutual
theorem Expr.exactPower_map {T U : Type} (g : T → U) (ρ : U → Int) (e : Expr T RelInt) : (e.map g).exactPower ρ = e.exactPower (ρ ∘ g) := by
  cases e with
  | value f => exact Factor.exactPower_map g ρ f
  | binary l o f =>
    cases o <;> simp only [Expr.map, Expr.exactPower, Expr.exactPower_map g ρ l, Factor.exactPower_map g ρ f]
theorem Factor.exactPower_map {T U : Type} (g : T → U) (ρ : U → Int) (f : Factor T RelInt) : (f.map g).exactPower ρ = f.exactPower (ρ ∘ g) := by
  cases f with
  | value v => rfl
  | power v e => rfl
  | paren e => exact Expr.exactPower_map g ρ e
end

variable {u : UnresolvedDefs RelInt M} {defs : Defs RelInt M} {res : BMap (ResolvedItem RelInt M)}

theorem ok_nil : Dims.Ok [] fun _ => 0 := ⟨List.nodup_nil, fun _ => ⟨show IsI64 0 by decide, rfl⟩⟩

theorem solution_modulo (h : Accepted u defs res) {ρ : Str → Str → Int} (hp : u.Prescribes ρ) {x : Str} (hx : Grounded u.definitions x) :
    ∀ r, res.get x = some r → r.dimensions.dims.Ok (ρ x) := by
  induction hx with
  | intro x rs hx hy ih =>
    rw [← itemDefs_allItems] at hx
    obtain ⟨i, hi, rfl, rfl⟩ := mem_itemDefs.1 hx
    obtain ⟨d, g, e⟩ := h.solution.eqn i hi
    intro r hr
    rw [g] at hr
    cases hr
    have hev := resolveDimensions_eval e
    have leaf : ∀ y, Atom.other y ∈ i.expr.vals → (leafD res (.other y)).dims.Ok (ρ y) := by
      intro y hy'
      have hyr : y ∈ i.refs := mem_refs.2 hy'
      obtain ⟨j, hj, hjn⟩ := List.mem_map.1 (hy y hyr).defined
      rw [← itemDefs_allItems] at hj
      obtain ⟨i', hi', h1, -⟩ := mem_itemDefs.1 (show (j.1, j.2) ∈ _ from hj)
      obtain ⟨d', g', -⟩ := h.solution.eqn i' hi'
      rw [h1, hjn] at g'
      simp only [leafD, g']
      exact ih y hyr _ g'
    have main : ∀ ρ' : Atom (DM RelInt M) → Str → Int, (∀ c, Atom.concrete c ∈ i.expr.vals → c.dims.Ok (ρ' (.concrete c))) →
        (∀ y, ρ' (.other y) = ρ y) → d.dims.Ok fun k => i.expr.exactPower (ρ' · k) := by
      intro ρ' h1 h2
      refine Expr.eval_modulo (leafD res) ρ' i.expr (fun a ha => ?_) hev
      cases a with
      | concrete c => exact h1 c ha
      | other y => rw [h2]; exact leaf y ha
    rcases mem_allItems.1 hi with ⟨dd, hd, rfl⟩ | ⟨w, hw, rfl⟩ | ⟨c, hc, rfl⟩
    · show d.dims.Ok (ρ dd.name)
      have hρ := hp.1 dd hd
      cases hrhs : dd.rhs with
      | base b =>
        have hex : (Item.ofDimension (M := M) dd).expr = .value (.value (.concrete (DM.dimensions [(toSnakecase dd.name, Exponent.one)]))) := by
          simp [Item.ofDimension, hrhs]
        rw [hex] at hev
        simp only [Expr.map, Factor.map, Expr.eval, Factor.eval, leafD, Option.some.injEq] at hev
        subst hev
        rw [hrhs] at hρ
        refine ⟨by simp [DM.dimensions], fun k => ?_⟩
        simp only at hρ
        rw [hρ k, DM.dimensions, Dims.powerOf_cons]
        by_cases hk : toSnakecase dd.name = k
        · rw [if_pos hk, if_pos hk.symm]; exact ⟨by decide, rfl⟩
        · rw [if_neg hk, if_neg (Ne.symm hk)]; exact ⟨show IsI64 0 by decide, rfl⟩
      | expression ex =>
        have hex : (Item.ofDimension (M := M) dd).expr = ex.map (Atom.mapConcrete fun _ => DM.dimensions []) := by
          simp [Item.ofDimension, hrhs]
        rw [hrhs] at hρ
        have := main (fun a k => Atom.power (ρ · k) a) (fun c hc => by
          rw [hex, Expr.vals_map, List.mem_map] at hc
          obtain ⟨a, -, ha⟩ := hc
          cases a <;> simp [Atom.mapConcrete] at ha
          subst ha; exact ok_nil) (fun y => rfl)
        rw [hex] at this
        convert this using 1
        funext k
        rw [hρ k, Expr.exactPower_map]
        exact congrArg (fun q => Expr.exactPower q ex) (by funext a; cases a <;> rfl)
    · show d.dims.Ok (ρ w.name)
      have hρ := hp.2.1 w hw
      cases hrhs : w.definition with
      | base b =>
        have hex : (Item.ofUnit w).expr = .value (.value (.other b)) := by simp [Item.ofUnit, hrhs]
        rw [hrhs] at hρ
        have := main (fun a k => Atom.power (ρ · k) a) (fun c hc => by
          rw [hex] at hc; simp [Expr.vals, Factor.vals] at hc) (fun y => rfl)
        rw [hex] at this
        convert this using 1
        funext k
        rw [hρ k]; rfl
      | expression ex =>
        have hex : (Item.ofUnit w).expr = ex.map (Atom.mapConcrete DM.magnitude) := by simp [Item.ofUnit, hrhs]
        rw [hrhs] at hρ
        have := main (fun a k => Atom.power (ρ · k) a) (fun c hc => by
          rw [hex, Expr.vals_map, List.mem_map] at hc
          obtain ⟨a, -, ha⟩ := hc
          cases a <;> simp [Atom.mapConcrete] at ha
          subst ha; exact ok_nil) (fun y => rfl)
        rw [hex] at this
        convert this using 1
        funext k
        rw [hρ k, Expr.exactPower_map]
        exact congrArg (fun q => Expr.exactPower q ex) (by funext a; cases a <;> rfl)
    · show d.dims.Ok (ρ c.name)
      have hρ := hp.2.2 c hc
      have hex : (Item.ofConstant c).expr = c.rhs.map (Atom.mapConcrete DM.magnitude) := rfl
      have := main (fun a k => Atom.power (ρ · k) a) (fun c' hc' => by
        rw [hex, Expr.vals_map, List.mem_map] at hc'
        obtain ⟨a, -, ha⟩ := hc'
        cases a <;> simp [Atom.mapConcrete] at ha
        subst ha; exact ok_nil) (fun y => rfl)
      rw [hex] at this
      convert this using 1
      funext k
      rw [hρ k, Expr.exactPower_map]
      congr 1
      funext a; cases a <;> rfl

theorem accepted_modulo (h : Accepted u defs res) {ρ : Str → Str → Int} (hp : u.Prescribes ρ) :
    (∀ D ∈ defs.dimensions, D.dims.Wrapped (ρ D.name)) ∧ (∀ U ∈ defs.units, U.dims.Wrapped (ρ U.name)) ∧
    (∀ C ∈ defs.constants, C.dims.Wrapped (ρ C.name)) := by
  have key : ∀ i ∈ allItems u, ∀ r, res.get i.ident = some r → r.dimensions.dims.Ok (ρ i.ident) := by
    intro i hi r hr
    refine solution_modulo h hp (h.grounded _ ?_) r hr
    rw [← allItems_ident]; exact List.mem_map.2 ⟨i, hi, rfl⟩
  refine ⟨fun D hD => ?_, fun U hU => ?_, fun C hC => ?_⟩
  · obtain ⟨d, hd, dm, hg, rfl⟩ := ((dims_of_solution h.solution h.dims).1 D).1 hD
    exact (key _ (mem_allItems.2 (.inl ⟨d, hd, rfl⟩)) _ hg).2
  · obtain ⟨d, hd, dm, hg, rfl⟩ := ((units_of_solution h.solution h.units).1 U).1 hU
    exact (key _ (mem_allItems.2 (.inr (.inl ⟨d, hd, rfl⟩))) _ hg).2
  · obtain ⟨d, hd, dm, hg, rfl⟩ := ((constants_of_solution h.solution h.constants).1 C).1 hC
    exact (key _ (mem_allItems.2 (.inr (.inr ⟨d, hd, rfl⟩))) _ hg).2
end

end Diman
