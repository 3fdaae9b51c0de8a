import Verif.Proofs.Generated
import Verif.Proofs.Expand
import Verif.Proofs.DimType
/-! Invariants of all exponents occurring in a resolved unit system; writing them into the generated code. -/
set_option linter.unusedSectionVars false
namespace Diman
open LawfulExponent

/-- A property of (base dimension, exponent) entries that the exponent computations preserve; `Lit` is what literal exponents in
the definitions satisfy. -/
structure EntryInv {E : Type} [Exponent E] (Q : Str → E → Prop) (Lit : E → Prop) : Prop where
  add : ∀ {k a b c}, Q k a → Q k b → Exponent.add a b = some c → Q k c
  neg : ∀ {k a c}, Q k a → Exponent.neg a = some c → Q k c
  mul : ∀ {k a p c}, Q k a → Lit p → Exponent.mul a p = some c → Q k c

section
variable {E M : Type} [Exponent E] [MagOps E M] {Q : Str → E → Prop} {Lit : E → Prop} (inv : EntryInv Q Lit)
include inv

/-- All entries of the map satisfy `Q`. -/
def Dims.AllE (Q : Str → E → Prop) (d : Dims E) : Prop := ∀ kv ∈ d, Q kv.1 kv.2

theorem Dims.addEntry_allE {d d' : Dims E} {k : Str} {v : E} (hd : d.AllE Q) (hv : Q k v) (h : d.addEntry k v = some d') :
    d'.AllE Q := by
  induction d generalizing d' with
  | nil => simp only [addEntry, Option.some.injEq] at h; subst h; simpa [AllE] using hv
  | cons kv d ih =>
    obtain ⟨k0, v0⟩ := kv
    have h0 : Q k0 v0 := hd (k0, v0) (by simp)
    have hd' : AllE Q d := fun kv hkv => hd kv (List.mem_cons_of_mem _ hkv)
    unfold addEntry at h
    split at h
    · rename_i hk; subst hk
      simp only [bindM_eq_some, pure_eq_some] at h
      obtain ⟨x, hx, rfl⟩ := h
      intro kv hkv
      rcases List.mem_cons.1 hkv with rfl | hkv
      · exact inv.add h0 hv hx
      · exact hd' kv hkv
    · simp only [bindM_eq_some, pure_eq_some] at h
      obtain ⟨m, hm, rfl⟩ := h
      intro kv hkv
      rcases List.mem_cons.1 hkv with rfl | hkv
      · exact h0
      · exact ih hd' hm kv hkv

theorem Dims.mul_allE {a b c : Dims E} (ha : a.AllE Q) (hb : b.AllE Q) (h : a.mul b = some c) : c.AllE Q := by
  induction b generalizing a with
  | nil => simp only [mul, Option.some.injEq] at h; subst h; exact ha
  | cons kv b ih =>
    obtain ⟨k, v⟩ := kv
    simp only [mul, bindM_eq_some] at h
    obtain ⟨m, hm, h⟩ := h
    exact ih (addEntry_allE inv ha (hb (k, v) (by simp)) hm) (fun kv hkv => hb kv (by simp [hkv])) h

theorem Dims.inv_allE {a c : Dims E} (ha : a.AllE Q) (h : a.inv = some c) : c.AllE Q := by
  induction a generalizing c with
  | nil => simp only [Dims.inv, Option.some.injEq] at h; subst h; simp [AllE]
  | cons kv a ih =>
    obtain ⟨k, v⟩ := kv
    simp only [Dims.inv, bindM_eq_some, pure_eq_some] at h
    obtain ⟨x, hx, y, hy, rfl⟩ := h
    intro kv hkv
    rcases List.mem_cons.1 hkv with rfl | hkv
    · exact inv.neg (ha (k, v) (by simp)) hx
    · exact ih (fun kv hkv => ha kv (by simp [hkv])) hy kv hkv

theorem Dims.pow_allE {p : E} (hp : Lit p) {a c : Dims E} (ha : a.AllE Q) (h : a.pow p = some c) : c.AllE Q := by
  induction a generalizing c with
  | nil => simp only [Dims.pow, Option.some.injEq] at h; subst h; simp [AllE]
  | cons kv a ih =>
    obtain ⟨k, v⟩ := kv
    simp only [Dims.pow, bindM_eq_some, pure_eq_some] at h
    obtain ⟨x, hx, y, hy, rfl⟩ := h
    intro kv hkv
    rcases List.mem_cons.1 hkv with rfl | hkv
    · exact inv.mul (ha (k, v) (by simp)) hp hx
    · exact ih (fun kv hkv => ha kv (by simp [hkv])) hy kv hkv

theorem Dims.div_allE {a b c : Dims E} (ha : a.AllE Q) (hb : b.AllE Q) (h : a.div b = some c) : c.AllE Q := by
  simp only [Dims.div, bindM_eq_some] at h
  obtain ⟨m, hm, h⟩ := h
  exact mul_allE inv ha (inv_allE inv hb hm) h

mutual
theorem Expr.eval_allE (e : Expr (DM E M) E) (hl : ∀ d ∈ e.vals, d.dims.AllE Q) (he : e.AllExp Lit)
    {r : DM E M} (h : e.eval = some r) : r.dims.AllE Q := by
  match e with
  | .value f => exact Factor.eval_allE f hl he h
  | .binary l o f =>
    simp only [Expr.eval, bindM_eq_some] at h
    obtain ⟨a, ha, b, hb, h⟩ := h
    have i1 := Expr.eval_allE l (fun d hd => hl d (by simp [Expr.vals, hd])) he.1 ha
    have i2 := Factor.eval_allE f (fun d hd => hl d (by simp [Expr.vals, hd])) he.2 hb
    cases o with
    | mul => exact Dims.mul_allE inv i1 i2 (dm_mul_some h).1
    | div => exact Dims.div_allE inv i1 i2 (dm_div_some h).1
theorem Factor.eval_allE (f : Factor (DM E M) E) (hl : ∀ d ∈ f.vals, d.dims.AllE Q) (he : f.AllExp Lit)
    {r : DM E M} (h : f.eval = some r) : r.dims.AllE Q := by
  match f with
  | .value v =>
    simp only [Factor.eval, Option.some.injEq] at h; subst h
    exact hl v (by simp [Factor.vals])
  | .power v p =>
    simp only [Factor.eval] at h
    exact Dims.pow_allE inv he (hl v (by simp [Factor.vals])) (dm_pow_some h).1
  | .paren e =>
    simp only [Factor.eval] at h
    exact Expr.eval_allE e hl he h
end

theorem solution_allE {l : List (Item E M)} {res : BMap (ResolvedItem E M)} (hS : Solution l res)
    (hconc : ∀ i ∈ l, ∀ c, Atom.concrete c ∈ i.expr.vals → c.dims.AllE Q) (hlit : ∀ i ∈ l, i.expr.AllExp Lit)
    {x : Str} (hx : Grounded (itemDefs l) x) : ∀ r, res.get x = some r → r.dimensions.dims.AllE Q := by
  induction hx with
  | intro x rs hx _ ih =>
    intro r hr
    obtain ⟨i, hi, rfl, rfl⟩ := mem_itemDefs.1 hx
    obtain ⟨dm, g, e⟩ := hS.eqn i hi
    rw [hr] at g; injection g with g; subst g
    have he := resolveDimensions_eval e
    refine Expr.eval_allE inv _ ?_ ((Expr.allExp_map _ _ _).2 (hlit i hi)) he
    intro d hd
    simp only [Expr.vals_map, List.mem_map] at hd
    obtain ⟨a, ha, rfl⟩ := hd
    cases a with
    | concrete c => exact hconc i hi c ha
    | other y =>
      simp only [leafD]
      cases hg : res.get y with
      | none => simp [Dims.AllE]
      | some r => exact ih y (mem_refs.2 ha) r hg

end

section
variable {E M : Type} [Exponent E] [MagOps E M]

/-- Every literal exponent written in the unit system satisfies `P`. -/
def Unresolved.LitExponents (P : E → Prop) (u : UnresolvedDefs E M) : Prop :=
  (∀ d ∈ u.dimensions, d.rhs.AllExp P) ∧ (∀ x ∈ u.units, x.definition.AllExp P) ∧ (∀ c ∈ u.constants, c.rhs.AllExp P)

theorem allItems_lit {u : UnresolvedDefs E M} {P : E → Prop} (hg : u.LitExponents P) : ∀ i ∈ allItems u, i.expr.AllExp P := by
  intro i hi
  rcases mem_allItems.1 hi with ⟨d, hd, rfl⟩ | ⟨x, hx, rfl⟩ | ⟨c, hc, rfl⟩
  · have := hg.1 d hd
    unfold Item.ofDimension
    cases hr : d.rhs with
    | base b => simp [Expr.AllExp, Factor.AllExp]
    | expression e => rw [hr] at this; exact (Expr.allExp_map _ _ e).2 this
  · have := hg.2.1 x hx
    unfold Item.ofUnit
    cases hr : x.definition with
    | base b => simp [Expr.AllExp, Factor.AllExp]
    | expression e => rw [hr] at this; exact (Expr.allExp_map _ _ e).2 this
  · exact (Expr.allExp_map _ _ _).2 (hg.2.2 c hc)

theorem allItems_concrete {u : UnresolvedDefs E M} {Q : Str → E → Prop}
    (hq : ∀ k ∈ baseDimensions u.dimensions, Q k Exponent.one) :
    ∀ i ∈ allItems u, ∀ c, Atom.concrete c ∈ i.expr.vals → c.dims.AllE Q := by
  intro i hi c hc
  have hmap : ∀ {C : Type} (f : C → DM E M) (e : Expr (Atom C) E), (∀ x, (f x).dims = []) →
      Atom.concrete c ∈ (e.map (Atom.mapConcrete f)).vals → c.dims.AllE Q := by
    intro C f e hf hc
    simp only [Expr.vals_map, List.mem_map] at hc
    obtain ⟨a, _, ha⟩ := hc
    cases a with
    | concrete x => simp only [Atom.mapConcrete, Atom.concrete.injEq] at ha; subst ha; rw [hf]; simp [Dims.AllE]
    | other _ => simp [Atom.mapConcrete] at ha
  rcases mem_allItems.1 hi with ⟨d, hd, rfl⟩ | ⟨x, hx, rfl⟩ | ⟨k, hk, rfl⟩
  · unfold Item.ofDimension at hc
    cases hr : d.rhs with
    | base b =>
      rw [hr] at hc
      simp [Expr.vals, Factor.vals] at hc
      subst hc
      simp only [Dims.AllE, DM.dimensions, List.mem_singleton, forall_eq]
      apply hq
      unfold baseDimensions
      exact List.mem_map.2 ⟨d, List.mem_filter.2 ⟨hd, by simp [DimensionEntry.isBase, hr]⟩, rfl⟩
    | expression e => rw [hr] at hc; exact hmap _ e (fun _ => rfl) hc
  · unfold Item.ofUnit at hc
    cases hr : x.definition with
    | base b => rw [hr] at hc; simp [Expr.vals, Factor.vals] at hc
    | expression e => rw [hr] at hc; exact hmap _ e (fun _ => rfl) hc
  · exact hmap _ _ (fun _ => rfl) hc

theorem Accepted.allE {u : UnresolvedDefs E M} {defs : Defs E M} {res : BMap (ResolvedItem E M)} (h : Accepted u defs res)
    {Q : Str → E → Prop} {Lit : E → Prop} (inv : EntryInv Q Lit) (hq : ∀ k ∈ baseDimensions u.dimensions, Q k Exponent.one)
    (hl : u.LitExponents Lit) {x : Str} {r} (hr : res.get x = some r) : r.dimensions.dims.AllE Q := by
  refine solution_allE inv h.solution (allItems_concrete hq) (allItems_lit hl) ?_ r hr
  rw [itemDefs_allItems]
  apply h.grounded
  obtain ⟨h1, rfl⟩ := h.solution.only _ _ hr
  rw [← allItems_ident]; exact List.mem_map_of_mem (f := Item.ident) h1
end

/-- Exponents that occur in generated code: in normal form and representable, so that the written initialiser evaluates to them. -/
class WrittenExponent (E : Type) [Exponent E] [LawfulExponent E] [FieldOps E] where
  Ok : E → Prop
  one_ok : Ok (Exponent.one : E)
  ok_canon : ∀ {a : E}, Ok a → Canon a
  add_ok : ∀ {a b c : E}, Ok a → Ok b → Exponent.add a b = some c → Ok c
  neg_ok : ∀ {a c : E}, Ok a → Exponent.neg a = some c → Ok c
  mul_ok : ∀ {a b c : E}, Ok a → Ok b → Exponent.mul a b = some c → Ok c
  entry_ok : ∀ {a : E}, Ok a → FieldOps.entry a = some a

instance : WrittenExponent Int where
  Ok _ := True
  one_ok := trivial
  ok_canon _ := trivial
  add_ok _ _ _ := trivial
  neg_ok _ _ := trivial
  mul_ok _ _ _ := trivial
  entry_ok _ := rfl

theorem Ratio.new_self {a : Ratio} (hc : a.Canonical) (hr : a.InRange) : Ratio.new a.num a.denom = some a := by
  obtain ⟨n, d⟩ := a
  obtain ⟨hd, hg⟩ := hc
  obtain ⟨rn, rd⟩ := hr
  simp only at hd hg rn rd
  have hfd : FitsAbs d := by unfold FitsAbs i64Max; unfold IsI64 i64Max at rd; omega
  have hft : FitsAbs (n.tmod d) := by
    rw [FitsAbs.iff] at hfd ⊢
    rw [Int.natAbs_tmod]
    have := Nat.mod_lt n.natAbs (show 0 < d.natAbs by omega)
    omega
  have hl : ∃ r, gcdLoop n d = some r := by
    rw [gcdLoop, dif_neg (by omega), if_neg (by omega)]
    exact gcdLoop_isSome hfd hft
  obtain ⟨r, hr⟩ := hl
  have h1 : gcd n d = some 1 := by
    unfold gcd
    simp only [hr, Option.bind_eq_bind, Option.bind_some]
    rw [gcdLoop_some hr, hg]; decide
  have hdiv : ∀ x, IsI64 x → i64Div x 1 = some x := by
    intro x hx
    unfold i64Div
    rw [if_neg (by decide), Int.tdiv_one]
    exact i64_of hx
  unfold Ratio.new
  simp only [h1, hdiv n rn, hdiv d rd, Option.bind_eq_bind, Option.bind_some]; rfl

instance : WrittenExponent Ratio where
  Ok r := r.Canonical ∧ r.InRange
  one_ok := by show Ratio.Canonical ⟨1, 1⟩ ∧ Ratio.InRange ⟨1, 1⟩; decide
  ok_canon h := h.1
  add_ok {a b c} ha hb h := ⟨Ratio.add_canonical ha.1 hb.1 h, (Ratio.new_some (Ratio.add_some h)).2.2.2.2⟩
  neg_ok {a c} ha h := ⟨Ratio.neg_canonical ha.1 h, by rw [(Ratio.neg_some h).1]; exact ⟨(Ratio.neg_some h).2, ha.2.2⟩⟩
  mul_ok {a b c} ha hb h := ⟨Ratio.mul_canonical ha.1 hb.1 h, (Ratio.new_some (Ratio.mul_some h)).2.2.2.2⟩
  entry_ok h := Ratio.new_self h.1 h.2

section
variable {E M : Type} [Exponent E] [LawfulExponent E] [FieldOps E] [LawfulFieldOps E] [WrittenExponent E] [MagOps E M]

/-- The struct expression written for a map whose keys are declared fields. -/
theorem dimensionExpr_spec {bd : List Str} (hbd : bd.Nodup) {d : Dims E} (hn : (d.map Prod.fst).Nodup)
    (hd : d.AllE fun k e => k ∈ bd ∧ WrittenExponent.Ok e) :
    ∃ v : DimVal E, dimensionExpr bd d = some v ∧ v.Canonical ∧ v.vec = bd.map d.expo := by
  have hsub : ∀ k ∈ d.map Prod.fst, k ∈ bd := by
    intro k hk
    obtain ⟨kv, hkv, rfl⟩ := List.mem_map.1 hk
    exact (hd kv hkv).1
  unfold dimensionExpr structExpr
  rw [if_neg (by simpa using hbd), if_neg (by simp only [not_or, not_not]; exact ⟨hn, hsub⟩)]
  have hfull : ¬ (¬ decide (d.length < bd.length) = true ∧ ¬ ∀ k ∈ bd, k ∈ d.map Prod.fst) := by
    rintro ⟨h1, h2⟩
    apply h2
    have hlen : bd.length ≤ (d.map Prod.fst).length := by simpa using h1
    have hsp : (d.map Prod.fst).Subperm bd := List.subperm_of_subset hn hsub
    have hperm := hsp.perm_of_length_le hlen
    exact fun k hk => hperm.mem_iff.2 hk
  rw [if_neg hfull]
  have hget : ∀ k, (d.find? fun kv => decide (kv.1 = k)) = (Dims.get d k).map fun v => (k, v) := by
    intro k
    clear hn hd hsub hfull
    induction d with
    | nil => rfl
    | cons kv d ih =>
      obtain ⟨k0, v0⟩ := kv
      simp only [List.find?_cons, Dims.get]
      by_cases h : k0 = k
      · subst h; simp
      · simp [h, ih]
  clear hsub hfull
  have main : ∀ l : List Str, ∃ v : DimVal E, (l.mapM fun k => match d.find? (fun kv => decide (kv.1 = k)) with
      | some (_, v) => FieldOps.entry v
      | none => some FieldOps.zero) = some v ∧ v.Canonical ∧ v.vec = l.map d.expo := by
    intro l
    induction l with
    | nil => exact ⟨[], rfl, by simp [DimVal.Canonical], rfl⟩
    | cons k l ih =>
      obtain ⟨v, hv, hc, he⟩ := ih
      have : ∃ w : E, (match d.find? (fun kv => decide (kv.1 = k)) with
          | some (_, v) => FieldOps.entry v
          | none => some FieldOps.zero) = some w ∧ Canon w ∧ val w = d.expo k := by
        rw [hget]
        cases hk : Dims.get d k with
        | none => exact ⟨FieldOps.zero, rfl, LawfulFieldOps.zero_canon, by rw [LawfulFieldOps.zero_val, Dims.expo, hk]⟩
        | some w =>
          have hok := (hd (k, w) (Dims.get_mem hk)).2
          exact ⟨w, WrittenExponent.entry_ok hok, WrittenExponent.ok_canon hok, by rw [Dims.expo, hk]⟩
      obtain ⟨w, hw, cw, ew⟩ := this
      refine ⟨w :: v, ?_, ?_, ?_⟩
      · rw [List.mapM_cons, hw, hv]; rfl
      · intro e he
        rcases List.mem_cons.1 he with rfl | he
        · exact cw
        · exact hc e he
      · simp only [DimVal.vec, List.map_cons] at he ⊢
        rw [ew, he]
  exact main bd

end
end Diman
