import Verif.Proofs.WellFormed
import Verif.Props.C40
import Verif.Props.C09
/-! When the exponents of a unit system are computed without overflow (integer exponents). -/
set_option linter.unusedSectionVars false
namespace Diman
open LawfulExponent

theorem inI64_cast (z : Int) : InI64 (z : ℚ) ↔ IsI64 z := by
  unfold InI64 IsI64 i64Min i64Max
  constructor
  · rintro ⟨h1, h2⟩
    constructor
    · have : ((-9223372036854775808 : Int) : ℚ) ≤ z := by push_cast; linarith
      exact_mod_cast this
    · have : (z : ℚ) ≤ ((9223372036854775807 : Int) : ℚ) := by push_cast; linarith
      exact_mod_cast this
  · rintro ⟨h1, h2⟩
    have h1' : ((-9223372036854775808 : Int) : ℚ) ≤ z := by exact_mod_cast h1
    have h2' : (z : ℚ) ≤ ((9223372036854775807 : Int) : ℚ) := by exact_mod_cast h2
    push_cast at h1' h2'
    constructor <;> linarith

theorem i64_none_iff {z : Int} : i64 z = none ↔ ¬ IsI64 z := by
  unfold i64 IsI64
  split <;> simp_all

theorem i64_some_range {z w : Int} (h : i64 z = some w) : w = z ∧ IsI64 w := by
  unfold i64 at h
  split at h
  · rename_i hz; injection h with h; subst h; exact ⟨rfl, hz⟩
  · simp at h

/-- All exponents are in range. -/
def Dims.InRange (d : Dims Int) : Prop := ∀ k v, Dims.get d k = some v → IsI64 v

theorem Dims.inRange_expo {d : Dims Int} (h : d.InRange) (k : Str) : InI64 (d.expo k) := by
  unfold Dims.expo
  cases hg : Dims.get d k with
  | none => exact (by unfold InI64; norm_num)
  | some v => exact (inI64_cast v).2 (h k v hg)

theorem Dims.mul_fits {a b : Dims Int} (ha : a.WF) (hb : b.WF) (ra : a.InRange) (rb : b.InRange) :
    (a.mul b = none ↔ ¬ ∀ k, InI64 (a.expo k + b.expo k)) ∧ ∀ c, a.mul b = some c → c.InRange := by
  obtain ⟨h1, h2⟩ := Dims.mul_at ha.1 hb.1
  have hval : ∀ z : Int, (val z : ℚ) = z := fun _ => rfl
  constructor
  · rw [h1, not_forall]
    refine exists_congr fun k => ?_
    unfold Dims.mulAt Dims.expo
    cases hga : Dims.get a k with
    | none =>
      simp only [reduceCtorEq, zero_add, false_iff, not_not]
      cases hgb : Dims.get b k with
      | none => unfold InI64; norm_num
      | some w => exact (inI64_cast w).2 (rb k w hgb)
    | some v =>
      cases hgb : Dims.get b k with
      | none =>
        simp only [reduceCtorEq, add_zero, false_iff, not_not]
        exact (inI64_cast v).2 (ra k v hga)
      | some w =>
        simp only [Option.map_eq_none_iff, hval]
        rw [← Int.cast_add, inI64_cast]
        exact i64_none_iff
  · intro c hc k v hv
    have := (h2 c hc).2 k
    rw [hv] at this
    unfold Dims.mulAt at this
    cases hga : Dims.get a k with
    | none => rw [hga] at this; simp only [Option.some.injEq] at this; exact rb k v this
    | some x =>
      rw [hga] at this
      cases hgb : Dims.get b k with
      | none => rw [hgb] at this; simp only [Option.some.injEq] at this; subst this; exact ra k x hga
      | some w =>
        rw [hgb] at this
        simp only [Option.map_eq_some_iff, Option.some.injEq] at this
        obtain ⟨z, hz, rfl⟩ := this
        exact (i64_some_range hz).2

theorem Dims.each_fits {f : Int → Int} {g : Dims Int → Option (Dims Int)} (g0 : g [] = some [])
    (g1 : ∀ k v m, g ((k, v) :: m) = (i64 (f v)).bind fun v' => (g m).map fun m' => (k, v') :: m') {a : Dims Int} (ha : a.WF) :
    (g a = none ↔ ∃ k v, Dims.get a k = some v ∧ ¬ IsI64 (f v)) ∧ ∀ c, g a = some c → c.InRange ∧ c.WF ∧
      ∀ k, Dims.get c k = (Dims.get a k).map f := by
  obtain ⟨h1, h2⟩ := Dims.each_at (f := fun v => i64 (f v)) g0 g1 a
  constructor
  · rw [h1]
    constructor
    · rintro ⟨k, v, ⟨h, hn⟩ | ⟨p, hp, hn⟩⟩
      · exact ⟨k, v, h, i64_none_iff.1 hn⟩
      · obtain ⟨k', v'⟩ := p
        refine ⟨k', v', ?_, i64_none_iff.1 hn⟩
        obtain ⟨w, hw⟩ : ∃ w, Dims.get a k' = some w := by
          cases hg : Dims.get a k' with
          | none => exact absurd (List.mem_map_of_mem (f := Prod.fst) hp) (Dims.get_none_iff.1 hg)
          | some w => exact ⟨w, rfl⟩
        have := List.inj_on_of_nodup_map ha.1 hp (Dims.get_mem' hw) rfl
        rw [hw]; injection this with _ this; rw [this]
    · rintro ⟨k, v, h, hn⟩; exact ⟨k, v, .inl ⟨h, i64_none_iff.2 hn⟩⟩
  · intro c hc
    obtain ⟨i1, i2⟩ := h2 c hc
    have hr : c.InRange := by
      intro k v hv
      rw [i2, Option.bind_eq_some_iff] at hv
      obtain ⟨w, _, hw⟩ := hv
      exact (i64_some_range hw).2
    refine ⟨hr, ⟨by rw [i1]; exact ha.1, fun _ _ => trivial⟩, fun k => ?_⟩
    rw [i2]
    cases hg : Dims.get a k with
    | none => rfl
    | some w =>
      cases hi : i64 (f w) with
      | none =>
        exfalso
        have := h1.2 ⟨k, w, .inl ⟨hg, hi⟩⟩
        rw [hc] at this; simp at this
      | some z => simp only [Option.bind_some, Option.map_some, hi, (i64_some_range hi).1]

theorem Dims.expo_int (d : Dims Int) (k : Str) : d.expo k = match Dims.get d k with | some v => ((v : Int) : ℚ) | none => 0 := by
  unfold Dims.expo; cases Dims.get d k <;> rfl

theorem inI64_zero : InI64 0 := by unfold InI64; norm_num

theorem Dims.inv_fits {a : Dims Int} (ha : a.WF) : (a.inv = none ↔ ¬ ∀ k, InI64 (-a.expo k)) ∧
    ∀ c, a.inv = some c → c.InRange ∧ c.WF ∧ ∀ k, c.expo k = -a.expo k := by
  obtain ⟨h1, h2⟩ := Dims.each_fits (f := fun v => -v) (g := Dims.inv) rfl dimsInv_cons ha
  constructor
  · rw [h1, not_forall]
    refine exists_congr fun k => ?_
    rw [Dims.expo_int]
    cases hg : Dims.get a k with
    | none => simp [inI64_zero]
    | some v =>
      simp only [Option.some.injEq, exists_eq_left']
      rw [← Int.cast_neg, inI64_cast]
  · intro c hc
    obtain ⟨i1, i2, i3⟩ := h2 c hc
    refine ⟨i1, i2, fun k => ?_⟩
    rw [Dims.expo_int, Dims.expo_int, i3]
    cases Dims.get a k <;> simp

theorem Dims.pow_fits {a : Dims Int} (p : Int) (ha : a.WF) : (a.pow p = none ↔ ¬ ∀ k, InI64 (a.expo k * p)) ∧
    ∀ c, a.pow p = some c → c.InRange := by
  obtain ⟨h1, h2⟩ := Dims.each_fits (f := fun v => v * p) (g := Dims.pow p) rfl (dimsPow_cons p) ha
  constructor
  · rw [h1, not_forall]
    refine exists_congr fun k => ?_
    rw [Dims.expo_int]
    cases hg : Dims.get a k with
    | none => simp [inI64_zero]
    | some v =>
      simp only [Option.some.injEq, exists_eq_left']
      rw [← Int.cast_mul, inI64_cast]
  · intro c hc; exact (h2 c hc).1

variable {M : Type} [MagOps Int M]

theorem dm_mul_none {a b : DM Int M} : MulDiv.mul Int a b = none ↔ a.dims.mul b.dims = none := by
  simp only [MulDiv.mul]; cases a.dims.mul b.dims <;> simp
theorem dm_div_none {a b : DM Int M} : MulDiv.div Int a b = none ↔ a.dims.div b.dims = none := by
  simp only [MulDiv.div]; cases a.dims.div b.dims <;> simp
theorem dm_pow_none {a : DM Int M} {p : Int} : MulDiv.pow a p = none ↔ a.dims.pow p = none := by
  simp only [MulDiv.pow]; cases a.dims.pow p <;> simp

theorem Expr.good_int {T : Type} (e : Expr T Int) : e.AllExp (Good : Int → Prop) := Expr.allExp_true (fun _ => trivial) e
theorem Factor.good_int {T : Type} (f : Factor T Int) : f.AllExp (Good : Int → Prop) := Expr.good_int (.value f)

mutual
/-- The evaluation of an expression fails exactly when a step leaves the range; its result is in range. -/
theorem Expr.eval_fits (e : Expr (DM Int M) Int) (hl : ∀ d ∈ e.vals, d.dims.WF ∧ d.dims.InRange) :
    (e.eval.isSome ↔ e.Fits fun d => d.dims.expo) ∧ ∀ r, e.eval = some r → r.dims.InRange := by
  match e with
  | .value f =>
    have := Factor.eval_fits f hl
    exact ⟨by rw [Expr.Fits]; exact this.1, this.2⟩
  | .binary l o f =>
    have hll : ∀ d ∈ l.vals, d.dims.WF ∧ d.dims.InRange := fun d hd => hl d (by simp [Expr.vals, hd])
    have hlf : ∀ d ∈ f.vals, d.dims.WF ∧ d.dims.InRange := fun d hd => hl d (by simp [Expr.vals, hd])
    have i1 := Expr.eval_fits l hll
    have i2 := Factor.eval_fits f hlf
    have nosome : ∀ {p : Prop}, ¬ p → ((none : Option (DM Int M)).isSome ↔ p) := fun hp => by simp [hp]
    cases ha : l.eval with
    | none =>
      have h1 : ¬ l.Fits fun d => d.dims.expo := by rw [← i1.1, ha]; simp
      constructor
      · simp only [Expr.eval, ha]
        refine nosome ?_
        cases o <;> exact fun h => h1 h.1
      · intro r h; simp [Expr.eval, ha] at h
    | some a =>
      have h1 : l.Fits fun d => d.dims.expo := by rw [← i1.1, ha]; rfl
      cases hb : f.eval with
      | none =>
        have h2 : ¬ f.Fits fun d => d.dims.expo := by rw [← i2.1, hb]; simp
        constructor
        · simp only [Expr.eval, ha, hb]
          refine nosome ?_
          cases o <;> exact fun h => h2 h.2.1
        · intro r h; simp [Expr.eval, ha, hb] at h
      | some b =>
        have h2 : f.Fits fun d => d.dims.expo := by rw [← i2.1, hb]; rfl
        obtain ⟨wa, ea⟩ := Expr.eval_expo l (fun d hd => (hll d hd).1) (Expr.good_int l) ha
        obtain ⟨wb, eb⟩ := Factor.eval_expo f (fun d hd => (hlf d hd).1) (Factor.good_int f) hb
        have ra := i1.2 a ha
        have rb := i2.2 b hb
        cases o with
        | mul =>
          have heq : (Expr.binary l .mul f).eval = MulDiv.mul Int a b := by simp [Expr.eval, ha, hb]
          rw [heq]
          obtain ⟨m1, m2⟩ := Dims.mul_fits wa wb ra rb
          constructor
          · rw [← not_iff_not, Option.not_isSome_iff_eq_none, dm_mul_none, m1, Expr.Fits]
            simp only [h1, h2, true_and, ea, eb]
          · intro r hr; exact m2 _ (dm_mul_some hr).1
        | div =>
          have heq : (Expr.binary l .div f).eval = MulDiv.div Int a b := by simp [Expr.eval, ha, hb]
          rw [heq]
          obtain ⟨n1, n2⟩ := Dims.inv_fits wb
          constructor
          · rw [← not_iff_not, Option.not_isSome_iff_eq_none, dm_div_none, Expr.Fits]
            simp only [h1, h2, true_and, ← ea, ← eb, forall_and]
            cases hi : b.dims.inv with
            | none =>
              have := n1.1 hi
              simp [Dims.div, hi, this]
            | some c =>
              obtain ⟨rc, wc, ec⟩ := n2 c hi
              obtain ⟨m1, _⟩ := Dims.mul_fits wa wc ra rc
              have hfit : ∀ k, InI64 (-b.dims.expo k) := by
                by_contra hn
                rw [← n1, hi] at hn; simp at hn
              have : a.dims.div b.dims = a.dims.mul c := by simp [Dims.div, hi]
              rw [this, m1]
              simp only [ec, ← sub_eq_add_neg]
              simp [hfit]
          · intro r hr
            have := (dm_div_some hr).1
            simp only [Dims.div, bindM_eq_some] at this
            obtain ⟨c, hi, h⟩ := this
            obtain ⟨rc, wc, ec⟩ := n2 c hi
            exact (Dims.mul_fits wa wc ra rc).2 _ h
theorem Factor.eval_fits (f : Factor (DM Int M) Int) (hl : ∀ d ∈ f.vals, d.dims.WF ∧ d.dims.InRange) :
    (f.eval.isSome ↔ f.Fits fun d => d.dims.expo) ∧ ∀ r, f.eval = some r → r.dims.InRange := by
  match f with
  | .value v =>
    refine ⟨by simp [Factor.eval, Factor.Fits], ?_⟩
    intro r h
    simp only [Factor.eval, Option.some.injEq] at h; subst h
    exact (hl v (by simp [Factor.vals])).2
  | .power v p =>
    obtain ⟨m1, m2⟩ := Dims.pow_fits p (hl v (by simp [Factor.vals])).1
    constructor
    · rw [← not_iff_not, Option.not_isSome_iff_eq_none, Factor.eval, dm_pow_none, m1, Factor.Fits]
      rfl
    · intro r h
      simp only [Factor.eval] at h
      exact m2 _ (dm_pow_some h).1
  | .paren e =>
    have := Expr.eval_fits e hl
    exact ⟨by rw [Factor.Fits]; exact this.1, this.2⟩
end

mutual
theorem Expr.fits_congr {T S : Type} (h : T → S) (ρ : T → Str → ℚ) (ρ' : S → Str → ℚ) (e : Expr T Int) (he : ∀ a ∈ e.vals, ∀ k, ρ a k = ρ' (h a) k) :
    e.Fits ρ ↔ (e.map h).Fits ρ' := by
  match e with
  | .value f => exact Factor.fits_congr h ρ ρ' f he
  | .binary l o f =>
    have h1 := Expr.fits_congr h ρ ρ' l fun a ha => he a (by simp [Expr.vals, ha])
    have h2 := Factor.fits_congr h ρ ρ' f fun a ha => he a (by simp [Expr.vals, ha])
    have e1 : ∀ k, l.specExpo ρ k = (l.map h).specExpo ρ' k := fun k => (Expr.specExpo_congr h ρ' ρ k l fun a ha => (he a (by simp [Expr.vals, ha]) k).symm).symm
    have e2 : ∀ k, f.specExpo ρ k = (f.map h).specExpo ρ' k := fun k =>
      (Expr.specExpo_congr h ρ' ρ k (.value f) fun a ha => (he a (by simp only [Expr.vals] at ha ⊢; simp [ha]) k).symm).symm
    cases o <;> simp only [Expr.map, Expr.Fits, h1, h2, e1, e2]
theorem Factor.fits_congr {T S : Type} (h : T → S) (ρ : T → Str → ℚ) (ρ' : S → Str → ℚ) (f : Factor T Int) (he : ∀ a ∈ f.vals, ∀ k, ρ a k = ρ' (h a) k) :
    f.Fits ρ ↔ (f.map h).Fits ρ' := by
  match f with
  | .value v => simp [Factor.map, Factor.Fits]
  | .power v p => simp only [Factor.map, Factor.Fits, he v (by simp [Factor.vals])]
  | .paren e => exact Expr.fits_congr h ρ ρ' e he
end


/-! ### The resolver -/

/-- What the resolver has found so far is in range and has the exponents `ρ`. -/
def ResolvedFits (ρ : Str → Str → ℚ) (res : BMap (ResolvedItem Int M)) : Prop :=
  ∀ y r, res.get y = some r → r.dimensions.dims.WF ∧ r.dimensions.dims.InRange ∧ ∀ k, r.dimensions.dims.expo k = ρ y k

/-- The literals of an item are in range. -/
def Item.LiteralsFit (i : Item Int M) : Prop := ∀ c, Atom.concrete c ∈ i.expr.vals → c.dims.WF ∧ c.dims.InRange

theorem resolveDimensions_leafD {res : BMap (ResolvedItem Int M)} {i : Item Int M} (h : ∀ y ∈ i.refs, ∃ r, res.get y = some r) :
    resolveDimensions res i = (i.expr.map (leafD res)).eval := by
  have : i.expr.mapM (leafOf res) = some (i.expr.map (leafD res)) := by
    apply Expr.mapM_of_forall
    intro v hv
    cases v with
    | concrete c => rfl
    | other y =>
      obtain ⟨r, hr⟩ := h y (mem_refs.2 hv)
      simp only [leafOf, hr, leafD]; rfl
  rw [resolveDimensions_def, this, Option.bind_some]

theorem resolved_step {ρ : Str → Str → ℚ} {res : BMap (ResolvedItem Int M)} (hr : ResolvedFits ρ res) {i : Item Int M} (hl : i.LiteralsFit)
    (h : ∀ y ∈ i.refs, ∃ r, res.get y = some r) :
    ((resolveDimensions res i).isSome ↔ i.expr.Fits (leafExpo ρ)) ∧ ∀ d, resolveDimensions res i = some d →
      d.dims.WF ∧ d.dims.InRange ∧ ∀ k, d.dims.expo k = i.expr.specExpo (leafExpo ρ) k := by
  have hv : ∀ d ∈ (i.expr.map (leafD res)).vals, d.dims.WF ∧ d.dims.InRange := by
    intro d hd
    simp only [Expr.vals_map, List.mem_map] at hd
    obtain ⟨a, ha, rfl⟩ := hd
    cases a with
    | concrete c => exact hl c ha
    | other y =>
      obtain ⟨r, g⟩ := h y (mem_refs.2 ha)
      simp only [leafD, g]
      exact ⟨(hr y r g).1, (hr y r g).2.1⟩
  have he : ∀ a ∈ i.expr.vals, ∀ k, leafExpo ρ a k = (leafD res a).dims.expo k := by
    intro a ha k
    cases a with
    | concrete c => rfl
    | other y =>
      obtain ⟨r, g⟩ := h y (mem_refs.2 ha)
      simp only [leafD, g, leafExpo]
      exact ((hr y r g).2.2 k).symm
  rw [resolveDimensions_leafD h]
  obtain ⟨e1, e2⟩ := Expr.eval_fits _ hv
  refine ⟨e1.trans (Expr.fits_congr (leafD res) (leafExpo ρ) (fun d => d.dims.expo) _ he).symm, fun d hd => ?_⟩
  obtain ⟨w, x⟩ := Expr.eval_expo _ (fun d hd => (hv d hd).1) (Expr.good_int _) hd
  exact ⟨w, e2 d hd, fun k => (x k).trans (Expr.specExpo_congr _ _ _ _ _ fun a ha => (he a ha k).symm)⟩

theorem run_fits {ρ : Str → Str → ℚ} {l done l' : List (Item Int M)} {res res' : BMap (ResolvedItem Int M)} (h : Run l res done l' res')
    (hb : ItemsBalanced l ρ) (hl : ∀ i ∈ l, i.LiteralsFit) (hr : ResolvedFits ρ res) : ResolvedFits ρ res' := by
  induction h with
  | refl => exact hr
  | @step l res x rest d done l' res' ht hd hrun ih =>
    obtain ⟨hx, l1, l2, e1, e2⟩ := takeResolvable_some ht
    have hsub : ∀ i ∈ rest, i ∈ l := by
      intro i hi
      rw [e2] at hi; rw [e1]
      simp only [List.mem_append, List.mem_cons] at hi ⊢
      tauto
    have hxl : x ∈ l := by rw [e1]; simp
    refine ih (fun i hi => hb i (hsub i hi)) (fun i hi => hl i (hsub i hi)) ?_
    intro y r hy
    rw [BMap.get_insert] at hy
    split at hy
    · rename_i hk
      injection hy with hy; subst hy
      have hrefs : ∀ y ∈ x.refs, ∃ r, res.get y = some r := by
        intro y hy
        have := isResolvable_iff.1 hx y hy
        rw [← BMap.contains_iff] at this
        unfold BMap.contains at this
        exact Option.isSome_iff_exists.1 this
      obtain ⟨w, rg, ex⟩ := (resolved_step hr (hl x hxl) hrefs).2 d hd
      refine ⟨w, rg, fun k => ?_⟩
      rw [ex k, ← hk, hb x hxl k]
    · exact hr y r hy

theorem solution_fits {ρ : Str → Str → ℚ} {l : List (Item Int M)} {res : BMap (ResolvedItem Int M)} (hS : Solution l res)
    (hb : ItemsBalanced l ρ) (hl : ∀ i ∈ l, i.LiteralsFit) {x : Str} (hx : Grounded (itemDefs l) x) :
    ∀ r, res.get x = some r → r.dimensions.dims.WF ∧ r.dimensions.dims.InRange ∧ ∀ k, r.dimensions.dims.expo k = ρ x k := by
  induction hx with
  | intro x rs hx hg ih =>
    intro r hr
    obtain ⟨i, hi, rfl, rfl⟩ := mem_itemDefs.1 hx
    obtain ⟨dm, g, e⟩ := hS.eqn i hi
    rw [hr] at g; injection g with g; subst g
    have hv : ∀ d ∈ (i.expr.map (leafD res)).vals, d.dims.WF ∧ d.dims.InRange := by
      intro d hd
      simp only [Expr.vals_map, List.mem_map] at hd
      obtain ⟨a, ha, rfl⟩ := hd
      cases a with
      | concrete c => exact hl i hi c ha
      | other y =>
        obtain ⟨j, _, _, d, g⟩ := grounded_resolved hS (hg y (mem_refs.2 ha))
        simp only [leafD, g]
        obtain ⟨w, rg, _⟩ := ih y (mem_refs.2 ha) _ g
        exact ⟨w, rg⟩
    have he := resolveDimensions_eval e
    obtain ⟨w, ex⟩ := Expr.eval_expo _ (fun d hd => (hv d hd).1) (Expr.good_int _) he
    refine ⟨w, (Expr.eval_fits _ hv).2 _ he, fun k => ?_⟩
    rw [ex k, hb i hi k]
    refine Expr.specExpo_congr _ _ _ _ _ fun a ha => ?_
    cases a with
    | concrete c => rfl
    | other y =>
      obtain ⟨j, _, _, d, g⟩ := grounded_resolved hS (hg y (mem_refs.2 ha))
      simp only [leafD, g, leafExpo]
      exact (ih y (mem_refs.2 ha) _ g).2.2 k

theorem solution_expr_fits {ρ : Str → Str → ℚ} {l : List (Item Int M)} {res : BMap (ResolvedItem Int M)} (hS : Solution l res)
    (hb : ItemsBalanced l ρ) (hl : ∀ i ∈ l, i.LiteralsFit) (hg : ∀ i ∈ l, Grounded (itemDefs l) i.ident)
    {i : Item Int M} (hi : i ∈ l) (hn : (l.map Item.ident).Nodup) : i.expr.Fits (leafExpo ρ) := by
  obtain ⟨dm, g, e⟩ := hS.eqn i hi
  have hR : ResolvedFits ρ res := by
    intro y r hy
    obtain ⟨h1, h2⟩ := hS.only _ _ hy
    exact solution_fits hS hb hl (by rw [← h2]; exact hg _ h1) r hy
  refine (resolved_step hR (hl i hi) fun y hy => ?_).1.1 (by rw [e]; rfl)
  obtain ⟨_, _, _, d, g⟩ := grounded_resolved hS (mem_idents_of_mem_refs hi (hg i hi) hn y hy)
  exact ⟨_, g⟩

/-! ### The statements -/
variable {factor : Prefix → M} {one : M}

theorem inRange_nil : Dims.InRange [] := fun k v h => by simp [Dims.get] at h

theorem mapConcrete_literalsFit {C : Type} {e : Expr (Atom C) Int} {f : C → DM Int M} (hf : ∀ c, (f c).dims = []) :
    ∀ c, Atom.concrete c ∈ (e.map (Atom.mapConcrete f)).vals → c.dims.WF ∧ c.dims.InRange := by
  intro c hc
  simp only [Expr.vals_map, List.mem_map] at hc
  obtain ⟨a, _, ha⟩ := hc
  cases a with
  | concrete x => simp only [Atom.mapConcrete, Atom.concrete.injEq] at ha; subst ha; rw [hf]; exact ⟨Dims.wf_nil, inRange_nil⟩
  | other _ => simp [Atom.mapConcrete] at ha

theorem allItems_literalsFit (u : UnresolvedDefs Int M) : ∀ i ∈ allItems u, i.LiteralsFit := by
  intro i hi
  rcases mem_allItems.1 hi with ⟨d, hd, rfl⟩ | ⟨x, hx, rfl⟩ | ⟨c, hc, rfl⟩
  · unfold Item.ofDimension Item.LiteralsFit
    cases hr : d.rhs with
    | base b =>
      intro c hc
      simp [Expr.vals, Factor.vals] at hc
      subst hc
      refine ⟨⟨by simp [DM.dimensions], fun _ _ => trivial⟩, ?_⟩
      intro k v h
      simp only [DM.dimensions, Dims.get] at h
      split at h
      · injection h with h; subst h; exact (inI64_cast _).1 (by unfold InI64; simp only [Exponent.one]; norm_num)
      · simp at h
    | expression e => exact mapConcrete_literalsFit fun _ => rfl
  · unfold Item.ofUnit Item.LiteralsFit
    cases hr : x.definition with
    | base b =>
      intro c hc
      simp [Expr.vals, Factor.vals] at hc
    | expression e => exact mapConcrete_literalsFit fun _ => rfl
  · exact mapConcrete_literalsFit fun _ => rfl

theorem fits_mapConcrete {C : Type} (e : Expr (Atom C) Int) (f : C → DM Int M) (hf : ∀ c, (f c).dims = []) (ρ : Str → Str → ℚ) :
    e.Fits (Atom.expo ρ) ↔ (e.map (Atom.mapConcrete f)).Fits (leafExpo ρ) := by
  refine Expr.fits_congr _ _ _ _ fun a _ k => ?_
  cases a with
  | concrete c => simp only [Atom.mapConcrete, leafExpo, Atom.expo, hf]; rfl
  | other y => rfl

theorem fits_items {t : UnresolvedTemplates Int M} {ρ : Str → Str → ℚ} (h : t.Fits ρ) {i : Item Int M}
    (hi : i ∈ allItems (UnresolvedTemplates.expand one factor t)) (hr : ∀ y ∈ i.refs, ∀ k, InI64 (ρ y k)) : i.expr.Fits (leafExpo ρ) := by
  rcases mem_allItems.1 hi with ⟨d, hd, rfl⟩ | ⟨x, hx, rfl⟩ | ⟨c, hc, rfl⟩
  · cases hd' : d.rhs with
    | base b => simp only [Item.ofDimension, hd', Expr.Fits, Factor.Fits]
    | expression e =>
      simp only [Item.ofDimension, hd']
      exact (fits_mapConcrete e _ (fun _ => rfl) ρ).1 (h.dimension d hd e hd')
  · obtain ⟨v, hv, hx⟩ := List.mem_flatMap.1 (show x ∈ t.units.flatMap (fun v => v.expand one factor) from hx)
    rcases expand_cases hx with ⟨_, h2, _⟩ | ⟨_, f, h2⟩
    · cases hd' : v.definition with
      | base b => simp only [Item.ofUnit, h2, hd', Expr.Fits, Factor.Fits]
      | expression e =>
        simp only [Item.ofUnit, h2, hd']
        exact (fits_mapConcrete e _ (fun _ => rfl) ρ).1 (h.unit v hv e hd')
    · have he : (Item.ofUnit x).expr = .binary (.value (.value (.concrete (DM.magnitude f)))) .mul (.value (.other v.name)) := by
        simp only [Item.ofUnit, h2, variantDef, Expr.map, Factor.map, Atom.mapConcrete]
      have := hr v.name (mem_refs.2 (by rw [he]; simp [Expr.vals, Factor.vals]))
      rw [he]
      simp only [Expr.Fits, Factor.Fits, true_and, Expr.specExpo, Factor.specExpo, leafExpo, DM.magnitude]
      intro k
      rw [show Dims.expo ([] : Dims Int) k = 0 from rfl, zero_add]
      exact this k
  · exact (fits_mapConcrete c.rhs _ (fun _ => rfl) ρ).1 (h.constant c hc)

theorem items_fits {t : UnresolvedTemplates Int M} {ρ : Str → Str → ℚ}
    (h : ∀ i ∈ allItems (UnresolvedTemplates.expand one factor t), i.expr.Fits (leafExpo ρ)) : t.Fits ρ := by
  refine ⟨fun d hd e he => ?_, fun v hv e he => ?_, fun c hc => ?_⟩
  · have := h _ (mem_allItems.2 (.inl ⟨d, hd, rfl⟩))
    simp only [Item.ofDimension, he] at this
    exact (fits_mapConcrete e _ (fun _ => rfl) ρ).2 this
  · obtain ⟨x, hx, h1, h2, _⟩ := expand_main (one := one) (factor := factor) v
    have := h _ (mem_allItems.2 (.inr (.inl ⟨x, List.mem_flatMap.2 ⟨v, hv, hx⟩, rfl⟩)))
    simp only [Item.ofUnit, h2, he] at this
    exact (fits_mapConcrete e _ (fun _ => rfl) ρ).2 this
  · exact (fits_mapConcrete c.rhs _ (fun _ => rfl) ρ).2 (h _ (mem_allItems.2 (.inr (.inr ⟨c, hc, rfl⟩))))

/-- If the statements have a solution in range, the macro does not overflow. -/
theorem runUnitSystem_isSome {t : UnresolvedTemplates Int M} {ρ : Str → Str → ℚ} (hb : t.Balanced ρ) (hf : t.Fits ρ) :
    (runUnitSystem factor t).isSome := by
  refine resolveDefs_isSome (resolveLoop_isSome _ _ fun done x rest res1 hr hx hres => ?_)
  have hb' : ItemsBalanced (survivors (allItems (UnresolvedTemplates.expand (MagOps.one Int) factor t))) ρ :=
    fun i hi => balanced_iff.1 hb i (mem_survivors hi)
  have hl : ∀ i ∈ survivors (allItems (UnresolvedTemplates.expand (MagOps.one Int) factor t)), i.LiteralsFit :=
    fun i hi => allItems_literalsFit _ i (mem_survivors hi)
  have hx' := (run_perm hr).2.subset hx
  have hR : ResolvedFits ρ res1 := run_fits hr hb' hl (fun y r h => by simp [BMap.get] at h)
  have hrefs : ∀ y ∈ x.refs, ∃ r, res1.get y = some r := by
    intro y hy
    have := isResolvable_iff.1 hres y hy
    rw [← BMap.contains_iff] at this
    unfold BMap.contains at this
    exact Option.isSome_iff_exists.1 this
  refine (resolved_step hR (hl x hx') hrefs).1.2 (fits_items hf (mem_survivors hx') fun y hy k => ?_)
  obtain ⟨r, g⟩ := hrefs y hy
  obtain ⟨_, rg, ex⟩ := hR y r g
  rw [← ex k]
  exact Dims.inRange_expo rg k

end Diman
