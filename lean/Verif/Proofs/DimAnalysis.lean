import Verif.Spec.DimAnalysis
import Verif.Props.C21
import Mathlib.LinearAlgebra.Finsupp.LinearCombination
import Mathlib.LinearAlgebra.Isomorphisms
import Mathlib.LinearAlgebra.Basis.VectorSpace
import Mathlib.LinearAlgebra.Pi
import Mathlib.LinearAlgebra.StdBasis
/-!
# Factors that agree with dimensions come from a change of base units (for C71)
-/
set_option linter.unusedSectionVars false
namespace Diman
open LawfulExponent

/-- The linear algebra: real numbers that satisfy all integral relations of rational vectors are the values of a linear function on them. -/
theorem exists_functional {ι : Type} (n : Nat) (δ : ι → Fin n → ℚ) (v : ι → ℝ)
    (h : ∀ p : ι →₀ ℤ, (∀ k, (p.sum fun i z => (z : ℚ) * δ i k) = 0) → (p.sum fun i z => (z : ℝ) * v i) = 0) :
    ∃ c : Fin n → ℝ, ∀ i, v i = ∑ k, (δ i k : ℝ) * c k := by
  classical
  let φ : (ι →₀ ℚ) →ₗ[ℚ] ℝ := Finsupp.linearCombination ℚ v
  let D : (ι →₀ ℚ) →ₗ[ℚ] (Fin n → ℚ) := Finsupp.linearCombination ℚ δ
  have hker : LinearMap.ker D ≤ LinearMap.ker φ := by
    intro p hp
    rw [LinearMap.mem_ker] at hp ⊢
    -- clear the denominators
    let N : ℕ := ∏ i ∈ p.support, (p i).den
    have hN : (N : ℚ) ≠ 0 := by
      have : N ≠ 0 := Finset.prod_ne_zero_iff.2 fun i _ => (p i).den_nz
      exact_mod_cast this
    have hint : ∀ i, ∃ z : ℤ, (z : ℚ) = N * p i := by
      intro i
      by_cases hi : i ∈ p.support
      · obtain ⟨m, hm⟩ := Finset.dvd_prod_of_mem (fun i => (p i).den) hi
        refine ⟨m * (p i).num, ?_⟩
        have hden : ((p i).den : ℚ) ≠ 0 := by exact_mod_cast (p i).den_nz
        have e : (p i) * (p i).den = (p i).num := Rat.mul_den_eq_num _
        have hm' : (N : ℚ) = (p i).den * m := by exact_mod_cast hm
        push_cast
        rw [hm', ← e]; ring
      · exact ⟨0, by rw [Finsupp.notMem_support_iff.1 hi]; simp⟩
    choose z hz using hint
    let q : ι →₀ ℤ := Finsupp.onFinset p.support z (by
      intro i hi
      by_contra hn
      rw [Finsupp.notMem_support_iff] at hn
      have := hz i
      rw [hn, mul_zero] at this
      exact hi (by exact_mod_cast this))
    have hq : ∀ i, (q i : ℚ) = N * p i := fun i => hz i
    have sumQ : ∀ (f : ι → ℚ), (q.sum fun i z => (z : ℚ) * f i) = N * (p.sum fun i r => r * f i) := by
      intro f
      rw [Finsupp.sum_of_support_subset q (s := p.support) Finsupp.support_onFinset_subset _ (by simp), Finsupp.sum, Finset.mul_sum]
      exact Finset.sum_congr rfl fun i _ => by rw [hq]; ring
    have sumR : (q.sum fun i z => (z : ℝ) * v i) = N * (p.sum fun i r => (r : ℝ) * v i) := by
      rw [Finsupp.sum_of_support_subset q (s := p.support) Finsupp.support_onFinset_subset _ (by simp), Finsupp.sum, Finset.mul_sum]
      refine Finset.sum_congr rfl fun i _ => ?_
      have : ((q i : ℚ) : ℝ) = ((N * p i : ℚ) : ℝ) := by rw [hq]
      push_cast at this
      rw [this]; ring
    have h0 : ∀ k, (p.sum fun i r => r * δ i k) = 0 := by
      intro k
      have := congrFun hp k
      simp only [D, Finsupp.linearCombination_apply, Finsupp.sum, Finset.sum_apply, Pi.smul_apply, smul_eq_mul, Pi.zero_apply] at this
      exact this
    have := h q fun k => by rw [sumQ, h0, mul_zero]
    rw [sumR] at this
    have hNR : (N : ℝ) ≠ 0 := by exact_mod_cast hN
    have hsum := (mul_eq_zero.1 this).resolve_left hNR
    simp only [φ, Finsupp.linearCombination_apply, Rat.smul_def]
    exact hsum
  let e := D.quotKerEquivRange
  obtain ⟨ψ, hψ⟩ := LinearMap.exists_extend (((LinearMap.ker D).liftQ φ hker).comp e.symm.toLinearMap)
  have hval : ∀ p, ψ (D p) = φ p := by
    intro p
    have h1 : ψ (D p) = ((LinearMap.ker D).liftQ φ hker) (e.symm ⟨D p, LinearMap.mem_range_self D p⟩) := by
      have := LinearMap.congr_fun hψ ⟨D p, LinearMap.mem_range_self D p⟩
      exact this
    have h2 : e.symm ⟨D p, LinearMap.mem_range_self D p⟩ = (LinearMap.ker D).mkQ p := by
      rw [LinearEquiv.symm_apply_eq]; rfl
    rw [h1, h2]; rfl
  refine ⟨fun k => ψ (Pi.single k 1), fun i => ?_⟩
  have h1 := hval (Finsupp.single i 1)
  simp only [φ, D, Finsupp.linearCombination_single, one_smul] at h1
  rw [← h1, LinearMap.pi_apply_eq_sum_univ ψ (δ i)]
  refine Finset.sum_congr rfl fun k _ => ?_
  rw [Rat.smul_def]
  congr 2
  funext j
  by_cases hj : k = j
  · subst hj; simp
  · simp [hj, Ne.symm hj]

section
variable {E : Type} [Exponent E] [LawfulExponent E]

theorem getD_lt {l : List ℚ} {i : Nat} (h : i < l.length) : l.getD i 0 = l[i] := by simp [List.getD, h]
theorem getD_ge {l : List ℚ} {i : Nat} (h : l.length ≤ i) : l.getD i 0 = 0 := by simp [List.getD, h]

/-- The powers to which the scales of base units are taken. -/
theorem scale_exp {n : Nat} (c : Fin n → ℝ) (d : DimVal E) (hd : d.length = n) :
    DimVal.scale (List.ofFn fun k => Real.exp (c k)) d = Real.exp (∑ k : Fin n, ((d.vec.getD k 0 : ℚ) : ℝ) * c k) := by
  unfold DimVal.scale
  have hv : d.vec.length = n := by rw [DimVal.vec, List.length_map, hd]
  have : d.vec = List.ofFn fun k : Fin n => d.vec.getD k 0 := by
    apply List.ext_getElem
    · rw [hv, List.length_ofFn]
    · intro i h1 h2
      rw [List.getElem_ofFn, getD_lt h1]
  have hz : List.zipWith (fun (x : ℝ) (q : ℚ) => x ^ (q : ℝ)) (List.ofFn fun k => Real.exp (c k)) d.vec =
      List.ofFn fun k : Fin n => Real.exp (((d.vec.getD k 0 : ℚ) : ℝ) * c k) := by
    apply List.ext_getElem
    · simp [hv]
    · intro i h1 h2
      have hi : i < d.vec.length := by simp at h1; omega
      rw [List.getElem_zipWith, List.getElem_ofFn, List.getElem_ofFn, ← Real.exp_mul, mul_comm, getD_lt hi]
  rw [hz, List.prod_ofFn, Real.exp_sum]

/-- Factors that satisfy all relations between the dimensions come from a change of base units. -/
theorem exists_scale {ι : Type} {n : Nat} (δ : ι → DimVal E) (hδ : ∀ i, (δ i).length = n) (c : ι → ℝ) (hc : ∀ i, 0 < c i)
    (h : ∀ p : ι →₀ ℤ, (∀ k, (p.sum fun i z => (z : ℚ) * (δ i).vec.getD k 0) = 0) → (p.prod fun i z => c i ^ z) = 1) :
    ∃ a : Fin n → ℝ, ∀ i, DimVal.scale (List.ofFn fun k => Real.exp (a k)) (δ i) = c i := by
  obtain ⟨a, ha⟩ := exists_functional n (fun i k => (δ i).vec.getD k 0) (fun i => Real.log (c i)) (by
    intro p hp
    have h0 : ∀ k, (p.sum fun i z => (z : ℚ) * (δ i).vec.getD k 0) = 0 := by
      intro k
      by_cases hk : k < n
      · exact hp ⟨k, hk⟩
      · refine Finset.sum_eq_zero fun i _ => ?_
        show (p i : ℚ) * (δ i).vec.getD k 0 = 0
        rw [getD_ge, mul_zero]
        rw [DimVal.vec, List.length_map, hδ]; omega
    have := congrArg Real.log (h p h0)
    rw [Real.log_one, Finsupp.prod, Real.log_prod (fun i _ => (zpow_pos (hc i) _).ne')] at this
    rw [← this, Finsupp.sum]
    exact Finset.sum_congr rfl fun i _ => by rw [Real.log_zpow])
  refine ⟨a, fun i => ?_⟩
  rw [scale_exp a (δ i) (hδ i), ← ha, Real.exp_log (hc i)]

theorem ofFn_exp_pos {n : Nat} (a : Fin n → ℝ) : ∀ x ∈ List.ofFn fun k => Real.exp (a k), 0 < x := by
  intro x hx
  obtain ⟨k, rfl⟩ := List.mem_ofFn.1 hx
  exact Real.exp_pos _

/-- The scale of a product of powers. -/
theorem scale_powers {n m : Nat} (a : Fin n → ℝ) (δ : Fin m → DimVal E) (hδ : ∀ i, (δ i).length = n) (q : Fin m → ℚ) {d : DimVal E} (hd : d.length = n)
    (h : ∀ k, d.vec.getD k 0 = ∑ i, q i * (δ i).vec.getD k 0) :
    DimVal.scale (List.ofFn fun k => Real.exp (a k)) d = ∏ i, DimVal.scale (List.ofFn fun k => Real.exp (a k)) (δ i) ^ (q i : ℝ) := by
  rw [scale_exp a d hd]
  simp only [scale_exp a _ (hδ _), ← Real.exp_mul]
  rw [← Real.exp_sum]
  congr 1
  simp only [h, Rat.cast_sum, Rat.cast_mul, Finset.sum_mul]
  rw [Finset.sum_comm]
  refine Finset.sum_congr rfl fun i _ => Finset.sum_congr rfl fun k _ => ?_
  ring

variable {U : Type} [FieldOps E] [LawfulFieldOps E] [DecidableEq E] [IdealFns]

/-- C21 for the call of a function. -/
theorem apply_rescale {ss : List Storage} {n : Nat} {dimOf : U → DimVal E} (hdim : ∀ u, (dimOf u).length = n ∧ (dimOf u).Canonical)
    {F : List (Func E U)} (hF : FuncsCheck ss n dimOf (FaithfulCall n) F) {f : Func E U} (hf : f ∈ F) (hv : f.vecs = [])
    (fac : U → ℝ) {s : List ℝ} (hs : ∀ x ∈ s, 0 < x) (fuel : Nat) {args : List (Val ℝ ℝ)} (hargs : ArgsHaveTy args f.params) :
    f.apply n (fun u => fac u * DimVal.scale s (dimOf u)) F fuel (rescaleAll s f.params args) =
      (f.apply n fac F fuel args).map (Val.rescale s f.ret) := by
  obtain ⟨h1, h2, h3⟩ := hF f hf
  rw [hv] at h2
  obtain ⟨m1, m2⟩ := C21_programs_partial hdim hF h1 h2 fac hs fuel (σ := ⟨args, []⟩) ⟨hargs, .nil⟩
  unfold Func.apply
  change (do let σ ← f.body.exec n _ F fuel (Store.rescale s f.params [] ⟨args, []⟩); _) = _
  rw [m1]
  cases hx : f.body.exec n fac F fuel ⟨args, []⟩ with
  | none => rfl
  | some σ => exact C21_terms_partial hdim h1 h3 fac (m2 σ hx).1 hs
end
end Diman
