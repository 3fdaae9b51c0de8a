import Verif.Proofs.DimAnalysis
import Mathlib.Algebra.BigOperators.Field
/-!
# C71 — Dimensional analysis holds of programs
-/
set_option linter.unusedSectionVars false
namespace Diman
open LawfulExponent
variable {E U : Type} [Exponent E] [LawfulExponent E] [FieldOps E] [LawfulFieldOps E] [DecidableEq E] [IdealFns]

theorem exp_zpow (x : ℝ) (z : ℤ) : Real.exp x ^ z = Real.exp (z * x) := by rw [← Real.rpow_intCast, ← Real.exp_mul, mul_comm]

theorem agree_finsupp {S : Set (DimVal E × ℝ)} (hS : Agree S) (p : S →₀ ℤ)
    (hp : ∀ k, (p.sum fun i z => (z : ℚ) * i.1.1.vec.getD k 0) = 0) : (p.prod fun i z => i.1.2 ^ z) = 1 := by
  have := hS (p.support.toList.map fun i => (i.1, p i))
    (by intro q hq; obtain ⟨i, -, rfl⟩ := List.mem_map.1 hq; exact i.2)
    (by
      intro k
      have := hp k
      rw [Finsupp.sum, ← Finset.sum_map_toList] at this
      rw [powersDim, List.map_map, List.map_map]
      exact this)
  rw [List.map_map] at this
  rw [Finsupp.prod, ← Finset.prod_map_toList]
  exact this

theorem hasFactor_scale {S : Set (DimVal E × ℝ)} {s : List ℝ} (h : ∀ p ∈ S, DimVal.scale s p.1 = p.2) {t : Ty E} {c : ℝ} (ht : t.HasFactor S c) :
    t.scale s = c := by
  cases t with
  | quantity _ d => exact h (d, c) ht
  | unit d => exact h (d, c) ht
  | runtimeUnit d => exact h (d, c) ht
  | bare _ => exact (show c = 1 from ht).symm
  | bool => exact (show c = 1 from ht).symm
  | ordering => exact (show c = 1 from ht).symm

/-- **C71.** Multiply the arguments of a function and the sizes of the units and constants it uses by any positive factors that agree with the
dimensions: whenever a product of powers of arguments, units and the result is dimensionless, the same product of powers of the factors is one. Then the
result is multiplied by its factor. The factors need not come from a choice of base units; and nothing is said of the quantities in between. -/
theorem C71_factors {ss : List Storage} {n : Nat} {dimOf : U → DimVal E} (hdim : ∀ u, (dimOf u).length = n ∧ (dimOf u).Canonical)
    {F : List (Func E U)} (hF : FuncsCheck ss n dimOf (FaithfulCall n) F) {f : Func E U} (hf : f ∈ F) (hv : f.vecs = [])
    {S : Set (DimVal E × ℝ)} (hlen : ∀ p ∈ S, p.1.length = n) (hpos : ∀ p ∈ S, 0 < p.2) (hS : Agree S)
    {b : U → ℝ} (hb : ∀ u, (dimOf u, b u) ∈ S) {cs : List ℝ} (hcs : List.Forall₂ (Ty.HasFactor S) f.params cs) {r : ℝ} (hr : f.ret.HasFactor S r)
    (fac : U → ℝ) (fuel : Nat) {args : List (Val ℝ ℝ)} (hargs : ArgsHaveTy args f.params) :
    f.apply n (fun u => fac u * b u) F fuel (List.zipWith Val.smul cs args) = (f.apply n fac F fuel args).map (Val.smul r) := by
  obtain ⟨a, h⟩ := exists_scale (ι := S) (fun i => i.1.1) (fun i => hlen _ i.2) (fun i => i.1.2) (fun i => hpos _ i.2) (agree_finsupp hS)
  generalize hsdef : List.ofFn (fun k => Real.exp (a k)) = s at h
  have hs : ∀ x ∈ s, 0 < x := by rw [← hsdef]; exact ofFn_exp_pos a
  have h' : ∀ p ∈ S, DimVal.scale s p.1 = p.2 := fun p hp => h ⟨p, hp⟩
  have main := apply_rescale hdim hF hf hv fac hs fuel hargs
  have e1 : (fun u => fac u * DimVal.scale s (dimOf u)) = fun u => fac u * b u := by funext u; rw [h' _ (hb u)]
  have e2 : rescaleAll s f.params args = List.zipWith Val.smul cs args := by
    have hsc : cs = f.params.map (Ty.scale s) := by
      clear hargs main
      generalize f.params = ts at hcs
      induction hcs with
      | nil => rfl
      | cons h1 _ ih => rw [List.map_cons, ← ih, hasFactor_scale h' h1]
    rw [hsc, List.zipWith_map_left]; rfl
  rw [e1, e2] at main
  rw [main]
  congr 1
  funext v
  rw [Val.rescale, hasFactor_scale h' hr]

/-- The factors agree with the dimensions exactly if they come from a change of base units. -/
theorem C71_agree_iff {n : Nat} {S : Set (DimVal E × ℝ)} (hlen : ∀ p ∈ S, p.1.length = n) (hpos : ∀ p ∈ S, 0 < p.2) :
    Agree S ↔ ∃ s : List ℝ, s.length = n ∧ (∀ x ∈ s, 0 < x) ∧ ∀ p ∈ S, p.2 = DimVal.scale s p.1 := by
  constructor
  · intro hS
    obtain ⟨a, h⟩ := exists_scale (ι := S) (fun i => i.1.1) (fun i => hlen _ i.2) (fun i => i.1.2) (fun i => hpos _ i.2) (agree_finsupp hS)
    exact ⟨_, List.length_ofFn .., ofFn_exp_pos a, fun p hp => (h ⟨p, hp⟩).symm⟩
  · rintro ⟨s, hl, hs, h⟩ l hm h0
    obtain ⟨a, rfl⟩ : ∃ a : Fin n → ℝ, s = List.ofFn fun k => Real.exp (a k) := by
      refine ⟨fun k => Real.log (s[k]'(by omega)), ?_⟩
      apply List.ext_getElem
      · simp [hl]
      · intro i h1 h2
        rw [List.getElem_ofFn]
        exact (Real.exp_log (hs _ (List.getElem_mem _))).symm
    have key : ∀ l : List ((DimVal E × ℝ) × ℤ), (∀ p ∈ l, p.1 ∈ S) → (l.map fun p => p.1.2 ^ p.2).prod =
        Real.exp (∑ k : Fin n, ((powersDim (l.map fun p => (p.1.1, (p.2 : ℚ))) k : ℚ) : ℝ) * a k) := by
      intro l hm
      induction l with
      | nil => simp [powersDim]
      | cons p l ih =>
        rw [List.map_cons, List.prod_cons, ih fun q hq => hm q (List.mem_cons_of_mem _ hq), h _ (hm p List.mem_cons_self),
          scale_exp a _ (hlen _ (hm p List.mem_cons_self)), exp_zpow, ← Real.exp_add, Finset.mul_sum, ← Finset.sum_add_distrib]
        congr 1
        refine Finset.sum_congr rfl fun k _ => ?_
        simp only [powersDim, List.map_cons, List.sum_cons]
        push_cast
        ring
    rw [key l hm]
    simp only [h0, Rat.cast_zero, zero_mul, Finset.sum_const_zero, Real.exp_zero]

/-! ### Functions that get everything with a dimension as an argument -/

/-- The types of arguments: floating-point quantities, then plain values. -/
def scalarParams (ps : List (Storage × DimVal E)) (ts : List (Ty E)) : List (Ty E) := ps.map (fun p => .quantity p.1 p.2) ++ ts
/-- Such arguments. -/
def scalarArgs (xs : List ℝ) (vs : List (Val ℝ ℝ)) : List (Val ℝ ℝ) := xs.map (fun x => .quantity [x]) ++ vs

theorem scalarArgs_haveTy {ps : List (Storage × DimVal E)} {ts : List (Ty E)} {xs : List ℝ} {vs : List (Val ℝ ℝ)}
    (hp : ∀ p ∈ ps, p.1.isFloat = true) (hx : xs.length = ps.length) (hvs : ArgsHaveTy vs ts) : ArgsHaveTy (scalarArgs xs vs) (scalarParams ps ts) := by
  unfold scalarArgs scalarParams ArgsHaveTy
  refine List.rel_append ?_ hvs
  induction ps generalizing xs with
  | nil => cases xs <;> first | exact .nil | cases hx
  | cons p ps ih =>
    cases xs with
    | nil => cases hx
    | cons x xs =>
      refine .cons ?_ (ih (fun q hq => hp q (List.mem_cons_of_mem _ hq)) (Nat.succ.inj hx))
      have := hp p List.mem_cons_self
      show [x].length = p.1.numDims
      revert this
      cases p.1 <;> first | (intro _; rfl) | (intro h; cases h)

theorem rescale_scalars {s : List ℝ} {ps : List (Storage × DimVal E)} {ts : List (Ty E)} (hts : ∀ t ∈ ts, t.isPlain = true) {vs : List (Val ℝ ℝ)}
    (hvs : vs.length = ts.length) {xs : List ℝ} (hx : xs.length = ps.length) :
    rescaleAll s (scalarParams ps ts) (scalarArgs xs vs) = scalarArgs (List.zipWith (fun p x => x * DimVal.scale s p.2) ps xs) vs := by
  unfold scalarParams scalarArgs rescaleAll
  rw [List.zipWith_append (by simp [hx])]
  congr 1
  · rw [List.zipWith_map_left, List.zipWith_map_right, List.map_zipWith]
    rfl
  · exact rescaleAll_plain hts hvs

theorem zipWith_prod_fin {α β : Type} {m : Nat} {f : α → β → ℝ} {xs : List α} {ys : List β} (hx : xs.length = m) (hy : ys.length = m) :
    (List.zipWith f xs ys).prod = ∏ i : Fin m, f (xs[i]'(by omega)) (ys[i]'(by omega)) := by
  rw [← List.prod_ofFn]
  congr 1
  apply List.ext_getElem
  · simp [hx, hy]
  · intro i h1 h2
    simp
theorem powersDim_fin {m : Nat} {ds : List (DimVal E)} {qs : List ℚ} (hd : ds.length = m) (hq : qs.length = m) (k : Nat) :
    powersDim (ds.zip qs) k = ∑ i : Fin m, (qs[i]'(by omega)) * (ds[i]'(by omega)).vec.getD k 0 := by
  unfold powersDim
  rw [← List.sum_ofFn]
  congr 1
  apply List.ext_getElem
  · simp [hd, hq]
  · intro i h1 h2
    simp

theorem relation_ofFn {ps : List (Storage × DimVal E)} (p : Fin ps.length →₀ ℤ) (hp0 : ∀ k, (p.sum fun i z => (z : ℚ) * ps[i].2.vec.getD k 0) = 0) (k : Nat) :
    powersDim ((ps.map Prod.snd).zip ((List.ofFn p).map Int.cast)) k = 0 := by
  have := hp0 k
  rw [Finsupp.sum_fintype _ _ (by simp)] at this
  rw [powersDim_fin (m := ps.length) (by simp) (by simp), ← Finset.sum_congr rfl (fun i _ => ?_)]
  · exact this
  · simp

section
variable {ss : List Storage} {n : Nat} [IsEmpty U] {dimOf : U → DimVal E} {F : List (Func E U)} (hF : FuncsCheck ss n dimOf (FaithfulCall n) F)
  {f : Func E U} (hf : f ∈ F) (hv : f.vecs = []) (fac : U → ℝ) (fuel : Nat)
  {ps : List (Storage × DimVal E)} (hp : ∀ p ∈ ps, p.1.isFloat = true) {ts : List (Ty E)} (hts : ∀ t ∈ ts, t.isPlain = true)
  (hparams : f.params = scalarParams ps ts) {vs : List (Val ℝ ℝ)} (hvs : ArgsHaveTy vs ts)
include hF hf hv hp hts hparams hvs

/-- The call with the arguments scaled. -/
theorem scalars_rescale {s : List ℝ} (hs : ∀ x ∈ s, 0 < x) {xs : List ℝ} (hx : xs.length = ps.length) :
    f.apply n fac F fuel (scalarArgs (List.zipWith (fun p x => x * DimVal.scale s p.2) ps xs) vs) =
      (f.apply n fac F fuel (scalarArgs xs vs)).map (Val.rescale s f.ret) := by
  have main := apply_rescale (fun u => isEmptyElim u) hF hf hv fac hs fuel (args := scalarArgs xs vs) (by
    rw [hparams]; exact scalarArgs_haveTy hp hx hvs)
  rw [hparams, rescale_scalars hts hvs.length_eq hx] at main
  rw [← main]
  congr 1
  funext u
  exact isEmptyElim u

theorem params_length : ∀ p ∈ ps, p.2.length = n := by
  intro p hmem
  exact ((hF f hf).1 (.quantity p.1 p.2) (by rw [hparams]; exact List.mem_append_left _ (List.mem_map_of_mem hmem)) p.2 rfl).1

/-- **C71, Buckingham's theorem.** A function that gets everything with a dimension as an argument, and returns a plain value or a dimensionless quantity:
the result depends only on the dimensionless products of powers of the arguments. If two lists of positive arguments have the same dimensionless products
(of integral powers), the results are the same, whatever the function does. -/
theorem C71_pi (hret : f.ret.isPlain = true ∨ ∃ s, f.ret = .quantity s (DimVal.none n)) {xs ys : List ℝ} (hx : xs.length = ps.length)
    (hy : ys.length = ps.length) (hx0 : ∀ x ∈ xs, 0 < x) (hy0 : ∀ y ∈ ys, 0 < y)
    (hprod : ∀ zs : List ℤ, zs.length = ps.length → (∀ k, powersDim ((ps.map Prod.snd).zip (zs.map Int.cast)) k = 0) →
      (List.zipWith (fun (x : ℝ) (z : ℤ) => x ^ z) xs zs).prod = (List.zipWith (fun (y : ℝ) (z : ℤ) => y ^ z) ys zs).prod) :
    f.apply n fac F fuel (scalarArgs xs vs) = f.apply n fac F fuel (scalarArgs ys vs) := by
  have hlen := params_length hF hf hv hp hts hparams hvs
  obtain ⟨a, h⟩ := exists_scale (ι := Fin ps.length) (n := n) (fun i => ps[i].2) (fun i => hlen _ (List.getElem_mem _)) (fun i => ys[i] / xs[i])
    (fun i => div_pos (hy0 _ (List.getElem_mem _)) (hx0 _ (List.getElem_mem _))) (by
      intro p hp0
      have := hprod (List.ofFn p) (List.length_ofFn ..) (relation_ofFn p hp0)
      rw [zipWith_prod_fin hx (List.length_ofFn ..), zipWith_prod_fin hy (List.length_ofFn ..)] at this
      rw [Finsupp.prod_fintype _ _ (by simp)]
      simp only [div_zpow, Finset.prod_div_distrib]
      simp only [List.getElem_ofFn, Fin.getElem_fin, Fin.eta] at this ⊢
      rw [← this]
      exact div_self (Finset.prod_ne_zero_iff.2 fun i _ => (zpow_pos (hx0 _ (List.getElem_mem _)) _).ne'))
  have main := scalars_rescale hF hf hv fac fuel hp hts hparams hvs (ofFn_exp_pos a) hx
  have e : List.zipWith (fun p x => x * DimVal.scale (List.ofFn fun k => Real.exp (a k)) p.2) ps xs = ys := by
    apply List.ext_getElem
    · simp [hx, hy]
    · intro i h1 h2
      have hi : i < ps.length := by omega
      rw [List.getElem_zipWith]
      have := h ⟨i, hi⟩
      simp only [Fin.getElem_fin] at this
      rw [this]
      exact mul_div_cancel₀ _ (hx0 _ (List.getElem_mem _)).ne'
  rw [e] at main
  rw [main]
  have : Val.rescale (List.ofFn fun k => Real.exp (a k)) f.ret = id := by
    funext v
    rcases hret with h | ⟨s, h⟩
    · exact smul_plain h v
    · rw [Val.rescale, h]
      show v.smul (DimVal.scale _ (DimVal.none n)) = v
      rw [DimVal.scale_none, Val.smul_one]
  rw [this, Option.map_id, id]

/-- **C71, power laws.** If moreover the dimensions of the arguments are independent, and the result has the dimension of `∏ x_i ^ p_i`, then the result
is a constant (the result for arguments one) times `∏ x_i ^ p_i`, for all positive arguments: there is no other function of these types. -/
theorem C71_power_law {s' : Storage} {d : DimVal E} (hret : f.ret = .quantity s' d) (hd : d.length = n) (hind : Independent (ps.map Prod.snd))
    {es : List ℚ} (he : es.length = ps.length) (hde : ∀ k, powersDim ((ps.map Prod.snd).zip es) k = d.vec.getD k 0) {xs : List ℝ}
    (hx : xs.length = ps.length) (hx0 : ∀ x ∈ xs, 0 < x) :
    f.apply n fac F fuel (scalarArgs xs vs) =
      (f.apply n fac F fuel (scalarArgs (List.replicate ps.length 1) vs)).map (Val.smul (powers xs es)) := by
  have hlen := params_length hF hf hv hp hts hparams hvs
  obtain ⟨a, h⟩ := exists_scale (ι := Fin ps.length) (n := n) (fun i => ps[i].2) (fun i => hlen _ (List.getElem_mem _)) (fun i => xs[i])
    (fun i => hx0 _ (List.getElem_mem _)) (by
      intro p hp0
      have := hind (List.ofFn p) (by simp) (relation_ofFn p hp0)
      have hz : p = 0 := by
        ext i
        exact this _ (List.mem_ofFn.2 ⟨i, rfl⟩)
      rw [hz]; rfl)
  have main := scalars_rescale hF hf hv fac fuel hp hts hparams hvs (ofFn_exp_pos a) (xs := List.replicate ps.length 1) (by simp)
  have e : List.zipWith (fun p x => x * DimVal.scale (List.ofFn fun k => Real.exp (a k)) p.2) ps (List.replicate ps.length 1) = xs := by
    apply List.ext_getElem
    · simp [hx]
    · intro i h1 h2
      have hi : i < ps.length := by omega
      rw [List.getElem_zipWith, List.getElem_replicate, one_mul]
      exact h ⟨i, hi⟩
  rw [e] at main
  rw [main]
  congr 1
  funext v
  rw [Val.rescale, hret]
  show v.smul (DimVal.scale _ d) = _
  rw [scale_powers a (fun i : Fin ps.length => ps[i].2) (fun i => hlen _ (List.getElem_mem _)) (fun i => es[i]) hd]
  · rw [powers, zipWith_prod_fin hx he]
    simp only [h]
  · intro k
    rw [← hde k, powersDim_fin (by simp) he]
    simp
end

/-- **C71, dimensions from nowhere.** If the dimension of the result cannot be made from those of the arguments and of the units and constants used, the
function can only return zero (or panic, or not end). -/
theorem C71_zero {ss : List Storage} {n : Nat} {dimOf : U → DimVal E} (hdim : ∀ u, (dimOf u).length = n ∧ (dimOf u).Canonical)
    {F : List (Func E U)} (hF : FuncsCheck ss n dimOf (FaithfulCall n) F) {f : Func E U} (hf : f ∈ F) (hv : f.vecs = []) (fac : U → ℝ) (fuel : Nat)
    {s' : Storage} {d : DimVal E} (hret : f.ret = .quantity s' d) (hd : d.length = n)
    (hnot : ¬ d.MadeFrom ({d' | ∃ t ∈ f.params, t.dim n = some d'} ∪ Set.range dimOf))
    {args : List (Val ℝ ℝ)} (hargs : ArgsHaveTy args f.params) {r : Raw ℝ} (h : f.apply n fac F fuel args = some (.quantity r)) : ∀ y ∈ r, y = 0 := by
  classical
  let T : Set (DimVal E) := {d' | ∃ t ∈ f.params, t.dim n = some d'} ∪ Set.range dimOf
  have hT : ∀ d' ∈ T, d'.length = n := by
    rintro d' (⟨t, ht, e⟩ | ⟨u, rfl⟩)
    · exact ((hF f hf).1 t ht d' e).1
    · exact (hdim u).1
  obtain ⟨a, hs⟩ := exists_scale (ι := Option T) (n := n) (fun i => i.elim d Subtype.val) (fun i => by cases i <;> [exact hd; exact hT _ (Subtype.property _)])
    (fun i => i.elim 2 fun _ => 1) (fun i => by cases i <;> norm_num) (by
      intro p hp
      have h0 : p none = 0 := by
        by_contra hne
        refine hnot ⟨(p.support.eraseNone.toList.map fun i => (i.1, -(p (some i) : ℚ) / p none)), ?_, ?_⟩
        · intro q hq
          obtain ⟨i, -, rfl⟩ := List.mem_map.1 hq
          exact i.2
        · intro k
          have hk := hp k
          have hm : none ∈ p.support := Finsupp.mem_support_iff.2 hne
          rw [Finsupp.sum, ← Finset.insertNone_eraseNone p.support |>.trans (Finset.insert_eq_of_mem hm), Finset.sum_insertNone] at hk
          rw [powersDim, List.map_map]
          have e : (List.map ((fun p => p.2 * p.1.vec.getD k 0) ∘ fun i : T => (i.1, -(p (some i) : ℚ) / p none)) p.support.eraseNone.toList).sum =
              ∑ i ∈ p.support.eraseNone, (-(p (some i) : ℚ) / p none) * i.1.vec.getD k 0 := by
            rw [← Finset.sum_map_toList]; rfl
          rw [e]
          have hne' : (p none : ℚ) ≠ 0 := by exact_mod_cast hne
          simp only [Option.elim] at hk
          have : ∑ i ∈ p.support.eraseNone, (-(p (some i) : ℚ) / p none) * i.1.vec.getD k 0 =
              -(∑ i ∈ p.support.eraseNone, (p (some i) : ℚ) * i.1.vec.getD k 0) / p none := by
            rw [neg_div, Finset.sum_div, ← Finset.sum_neg_distrib]
            exact Finset.sum_congr rfl fun i _ => by ring
          rw [this, div_eq_iff hne']
          linarith
      refine Finset.prod_eq_one fun i _ => ?_
      cases i with
      | none => show (2 : ℝ) ^ (p none) = 1; rw [h0]; rfl
      | some i => show (1 : ℝ) ^ (p (some i)) = 1; exact one_zpow _)
  have main := apply_rescale hdim hF hf hv fac (ofFn_exp_pos a) fuel hargs
  generalize List.ofFn (fun k => Real.exp (a k)) = s at hs main
  have hd2 : DimVal.scale s d = 2 := hs none
  have hone : ∀ d' ∈ T, DimVal.scale s d' = 1 := fun d' hd' => hs (some ⟨d', hd'⟩)
  have e1 : (fun u => fac u * DimVal.scale s (dimOf u)) = fac := by funext u; rw [hone _ (.inr ⟨u, rfl⟩), mul_one]
  have e2 : rescaleAll s f.params args = args := by
    have hp1 : ∀ t ∈ f.params, t.scale s = 1 := by
      intro t ht
      cases t with
      | quantity _ d' => exact hone d' (.inl ⟨_, ht, rfl⟩)
      | unit d' => exact hone d' (.inl ⟨_, ht, rfl⟩)
      | runtimeUnit d' => exact hone d' (.inl ⟨_, ht, rfl⟩)
      | bare _ => rfl
      | bool => rfl
      | ordering => rfl
    clear main h
    unfold rescaleAll
    generalize f.params = ts at hargs hp1
    induction hargs with
    | nil => rfl
    | cons _ _ ih =>
      rw [List.zipWith_cons_cons, ih fun t ht => hp1 t (List.mem_cons_of_mem _ ht), Val.rescale, hp1 _ List.mem_cons_self, Val.smul_one]
  rw [e1, e2, h] at main
  simp only [Option.map_some, Option.some.injEq, Val.rescale, hret] at main
  have main : Val.quantity (M := ℝ) r = Val.quantity (r.map (· * DimVal.scale s d)) := main
  rw [hd2] at main
  injection main with main
  intro y hy
  obtain ⟨i, hi, rfl⟩ := List.mem_iff_getElem.1 hy
  have := congrArg (·[i]?) main
  simp only [List.getElem?_map, List.getElem?_eq_getElem hi, Option.map_some, Option.some.injEq] at this
  linarith

/-! ### Examples -/

/-- `fn period(l: Length<f64>, g: Acceleration<f64>) -> Time<f64> { (l / g).sqrt() }`, where the base dimensions are length and time -/
def C71.period : Func Int Empty :=
  ⟨scalarParams [(.f64, [1, 0]), (.f64, [1, -2])] [], [], .quantity .f64 [0, 1], .skip,
    .call .sqrt [.quantity .f64 [0, 2]] (.cons (.op ⟨.div, qG, qG⟩ ⟨2, [], [1, 0], [1, -2], .f64, .f64, .f64⟩ (.var 0) (.var 1)) .nil)⟩
/-- `fn compare(a: Length<f64>, b: Length<f64>) -> Option<Ordering> { a.partial_cmp(&b) }` -/
def C71.compare : Func Int Empty :=
  ⟨scalarParams [(.f64, [1, 0]), (.f64, [1, 0])] [], [], .ordering, .skip,
    .op ⟨.partialOrd, qG, qG⟩ ⟨2, [1, 0], [], [], .f64, .f64, .f64⟩ (.var 0) (.var 1)⟩
/-- `fn delay(l: Length<f64>) -> Time<f64> { Default::default() }` -/
def C71.delay : Func Int Empty := ⟨[.quantity .f64 [1, 0]], [], .quantity .f64 [0, 1], .skip, .call (.default .f64 [0, 1]) [] .nil⟩

theorem C71.checked : FuncsCheck [.f64] 2 (fun u : Empty => u.elim) (FaithfulCall 2) [C71.period, C71.compare, C71.delay] := by
  intro f hf
  simp only [List.mem_cons, List.not_mem_nil, or_false] at hf
  rcases hf with rfl | rfl | rfl
  · refine ⟨?_, .skip, .call (t := .quantity .f64 [0, 1]) ⟨trivial, by simp, trivial⟩ (by decide +kernel) (.cons ?_ .nil)⟩
    · intro t ht d hd
      simp only [C71.period, scalarParams, List.map_cons, List.map_nil, List.append_nil, List.mem_cons, List.not_mem_nil, or_false] at ht
      rcases ht with rfl | rfl <;> (cases hd; exact ⟨rfl, fun _ _ => trivial⟩)
    · exact .op (lt := ⟨.value, .quantity .f64 [1, 0]⟩) (rt := ⟨.value, .quantity .f64 [1, -2]⟩) (out := .value (.quantity .f64 [0, 2]))
        (by decide) rfl (.var rfl) (.var rfl) ⟨rfl, rfl, rfl, rfl, .f64, rfl, _, _, rfl, rfl, rfl⟩ rfl
  · refine ⟨?_, .skip, ?_⟩
    · intro t ht d hd
      simp only [C71.compare, scalarParams, List.map_cons, List.map_nil, List.append_nil, List.mem_cons, List.not_mem_nil, or_false] at ht
      rcases ht with rfl | rfl <;> (cases hd; exact ⟨rfl, fun _ _ => trivial⟩)
    · exact .op (lt := ⟨.value, .quantity .f64 [1, 0]⟩) (rt := ⟨.value, .quantity .f64 [1, 0]⟩) (out := .ordering)
        (by decide) rfl (.var rfl) (.var rfl) ⟨rfl, rfl, rfl, rfl, .f64, rfl, rfl⟩ rfl
  · refine ⟨?_, .skip, .call ⟨trivial, by simp, ⟨rfl, fun _ _ => trivial⟩⟩ (by decide +kernel) .nil⟩
    intro t ht d hd
    simp only [C71.delay, List.mem_cons, List.not_mem_nil, or_false] at ht
    subst ht; cases hd; exact ⟨rfl, fun _ _ => trivial⟩

theorem C71.independent : Independent ([[1, 0], [1, -2]] : List (DimVal Int)) := by
  intro ps hl h p hp
  match ps, hl with
  | [a, b], _ =>
    have h0 := h 0
    have h1 := h 1
    simp [powersDim, DimVal.vec, LawfulExponent.val] at h0 h1
    simp only [List.mem_cons, List.not_mem_nil, or_false] at hp
    subst h1
    simp at h0
    rcases hp with rfl | rfl
    · exact h0
    · rfl

-- Every function from a length and an acceleration to a time computes a constant times `(l / g).sqrt()`, not only `period`.
example (F : List (Func Int Empty)) (hF : FuncsCheck [.f64] 2 (fun u : Empty => u.elim) (FaithfulCall 2) F) (f : Func Int Empty) (hf : f ∈ F)
    (hp : f.params = scalarParams [(.f64, [1, 0]), (.f64, [1, -2])] []) (hr : f.ret = .quantity .f64 [0, 1]) (hv : f.vecs = []) (fuel : Nat) (l g : ℝ)
    (hl : 0 < l) (hg : 0 < g) :
    f.apply 2 (fun u => u.elim) F fuel [.quantity [l], .quantity [g]] =
      (f.apply 2 (fun u => u.elim) F fuel [.quantity [1], .quantity [1]]).map (Val.smul (Real.sqrt (l / g))) := by
  have main := C71_power_law hF hf hv (fun u => u.elim) fuel (by simp [Storage.isFloat]) (by simp) hp (vs := []) .nil hr rfl C71.independent
    (es := [1 / 2, -1 / 2]) rfl (by
      intro k
      match k with
      | 0 => norm_num [powersDim, DimVal.vec, LawfulExponent.val]
      | 1 => norm_num [powersDim, DimVal.vec, LawfulExponent.val]
      | k + 2 => simp [powersDim, DimVal.vec]) (xs := [l, g]) rfl (by simp [hl, hg])
  have e : powers [l, g] [1 / 2, -1 / 2] = Real.sqrt (l / g) := by
    have h1 : powers [l, g] [1 / 2, -1 / 2] = l ^ ((1 / 2 : ℝ)) * g ^ (-(1 / 2 : ℝ)) := by
      simp only [powers, List.zipWith_cons_cons, List.zipWith_nil_left, List.prod_cons, List.prod_nil, mul_one]
      norm_num
    rw [h1, Real.sqrt_eq_rpow, Real.div_rpow hl.le hg.le, Real.rpow_neg hg.le]
    exact (div_eq_mul_inv _ _).symm
  rw [e] at main
  exact main

-- `compare` gives the same for 1 m, 2 m and for 3 m, 6 m: the only dimensionless products are powers of the quotient.
example : C71.compare.apply 2 (fun u => u.elim) [C71.period, C71.compare, C71.delay] 0 [.quantity [1], .quantity [2]] =
    C71.compare.apply 2 (fun u => u.elim) [C71.period, C71.compare, C71.delay] 0 [.quantity [3], .quantity [6]] := by
  refine C71_pi C71.checked (f := C71.compare) (by simp) rfl _ 0 (by simp [Storage.isFloat]) (by simp) rfl (vs := []) .nil (.inl rfl)
    (xs := [1, 2]) (ys := [3, 6]) rfl rfl (by simp) (by simp) ?_
  intro zs hl h
  match zs, hl with
  | [a, b], _ =>
    have h0 := h 0
    simp [powersDim, DimVal.vec, LawfulExponent.val] at h0
    have hb : b = -a := by
      have : (a : ℚ) + b = 0 := h0
      have : a + b = 0 := by exact_mod_cast this
      omega
    subst hb
    simp only [List.zipWith_cons_cons, List.zipWith_nil_left, List.prod_cons, List.prod_nil, mul_one, one_zpow, one_mul]
    rw [show (6 : ℝ) = 3 * 2 by norm_num, mul_zpow, ← mul_assoc, ← zpow_add₀ (by norm_num)]
    simp

-- `delay` can only return zero: a time cannot be made from a length.
example : ¬ DimVal.MadeFrom ([0, 1] : DimVal Int) ({d' | ∃ t ∈ C71.delay.params, t.dim 2 = some d'} ∪ Set.range fun u : Empty => u.elim) := by
  rintro ⟨l, hm, h⟩
  have h1 := h 1
  have : ∀ l : List (DimVal Int × ℚ), (∀ p ∈ l, p.1 = [1, 0]) → powersDim l 1 = 0 := by
    intro l hm
    unfold powersDim
    refine List.sum_eq_zero fun x hx => ?_
    obtain ⟨p, hp, rfl⟩ := List.mem_map.1 hx
    rw [hm p hp]
    simp [DimVal.vec, LawfulExponent.val]
  rw [this l fun p hp => by
    rcases hm p hp with ⟨t, ht, e⟩ | ⟨u, -⟩
    · simp only [C71.delay, List.mem_cons, List.not_mem_nil, or_false] at ht
      subst ht
      exact (Option.some.inj e).symm
    · exact u.elim] at h1
  simp [DimVal.vec, LawfulExponent.val] at h1

-- Factors that agree: lengths doubled, times tripled, speeds multiplied by 2/3.
example : Agree ({([1, 0], 2), ([0, 1], 3), ([1, -1], 2 / 3)} : Set (DimVal Int × ℝ)) := by
  rw [C71_agree_iff (n := 2)]
  · refine ⟨[2, 3], rfl, by simp, ?_⟩
    simp only [Set.mem_insert_iff, Set.mem_singleton_iff, forall_eq_or_imp, forall_eq]
    refine ⟨?_, ?_, ?_⟩ <;> norm_num [DimVal.scale, DimVal.vec, LawfulExponent.val, Real.rpow_neg]
  · simp
  · simp
end Diman
