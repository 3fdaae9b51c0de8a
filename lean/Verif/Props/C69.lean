import Verif.Proofs.Generic
import Verif.Props.C20
import Verif.Props.C21
/-!
# C69 — functions that are generic in dimensions
Type checking of a generic function (exponents `Sym`, `Spec/Generic.lean`) is enough: every instance type-checks and computes the same numbers, and the
numbers it computes scale with the numbers it is given as its signature says, one factor for each parameter.
-/
set_option linter.unusedSectionVars false
namespace Diman
open LawfulExponent

section
variable {E U : Type} [FieldOps E] [ExactFields E] [DecidableEq E]

theorem funcsCheck_hom {ss : List Storage} {n n' : Nat} {dimOf : U → DimVal E} {F : List (Func (Sym E) U)} (hF : GenericFuncs ss n dimOf F)
    {Φ : DimVal (Sym E) → DimVal ℚ} (H : DimHom n n' Φ) (hl : ∀ d : DimVal (Sym E), d.length = n → (Φ d).length = n') :
    FuncsCheck ss n' (fun u => Φ (dimOf u).closed) (FaithfulCall n') (F.map (Func.onDims Φ n')) := by
  intro f hf
  obtain ⟨g, hg, rfl⟩ := List.mem_map.1 hf
  obtain ⟨h1, -, h2, h3⟩ := hF g hg
  refine ⟨?_, cmdChecks_hom H (fun _ _ => faithful_hom H hl) h2, checks_hom H (fun _ _ => faithful_hom H hl) h3⟩
  intro t ht
  obtain ⟨u, hu, rfl⟩ := List.mem_map.1 ht
  exact wf_hom hl (h1 u (List.mem_append_left _ hu))

variable [IdealFns]

/-- **C69, instances.** If functions with dimensions as parameters type-check, then for any dimensions put for the parameters they type-check as
functions of the unit system, and on all arguments every function computes the same numbers in every instance. (Exponents are exact here. With 64-bit
exponents rustc evaluates the same expressions for each instance that is used; one that overflows is a compile error, see C03.) -/
theorem C69_instances {ss : List Storage} {n : Nat} {dimOf : U → DimVal E} {F : List (Func (Sym E) U)} (hF : GenericFuncs ss n dimOf F)
    (p : Nat → DimVal ℚ) :
    FuncsCheck ss n (fun u => (dimOf u).map ExactFields.value) (FaithfulCall n) (F.map (Func.onDims (DimVal.atDims p) n)) ∧
    ∀ f ∈ F, ∀ (fac : U → ℝ) (fuel : Nat) (args : List (Val ℝ ℝ)),
      (f.onDims (DimVal.atDims p) n).apply n fac (F.map (Func.onDims (DimVal.atDims p) n)) fuel args = f.apply n fac F fuel args := by
  have H := dimHom_at (E := E) n p
  refine ⟨?_, fun f hf fac fuel args => ?_⟩
  · have := funcsCheck_hom hF H (fun d h => (atDims_length p d).trans h)
    simpa only [atDims_closed] using this
  · obtain ⟨-, -, h2, h3⟩ := hF f hf
    have e2 : ∀ ρ, (f.result.onDims (DimVal.atDims p) n).eval n fac ρ = f.result.eval n fac ρ := fun ρ => eval_hom H h3
    unfold Func.apply
    simp only [Func.onDims, e2]
    have e1 := exec_hom H (fun g hg => (hF g hg).2.2) h2 fac fuel ⟨args, []⟩
    rw [e1]

theorem ty_scale_asBase {n : Nat} {s c : List ℝ} (hl : s.length = n) {t : Ty (Sym E)} (ht : t.HasFields n) :
    (t.onDims (asBase c.length)).scale (s ++ c) = t.genericScale s c := by
  cases t <;> simp only [Ty.onDims, Ty.scale, Ty.genericScale]
  all_goals exact scale_asBase (hl.trans (ht _ rfl).symm)

theorem rescaleAll_asBase {n : Nat} {s c : List ℝ} (hl : s.length = n) {Γ : List (Ty (Sym E))} (hΓ : ∀ t ∈ Γ, t.HasFields n) (vs : List (Val ℝ ℝ)) :
    rescaleAll (s ++ c) (Γ.map (Ty.onDims (asBase c.length))) vs = scaleAll s c Γ vs := by
  unfold rescaleAll scaleAll
  rw [List.zipWith_map_left]
  induction Γ generalizing vs with
  | nil => rfl
  | cons t Γ ih =>
    cases vs with
    | nil => rfl
    | cons v vs =>
      rw [List.zipWith_cons_cons, List.zipWith_cons_cons, ih (fun u hu => hΓ u (List.mem_cons_of_mem _ hu)), Val.rescale,
        ty_scale_asBase hl (hΓ t List.mem_cons_self)]

theorem rescale_asBase {n : Nat} {s c : List ℝ} (hl : s.length = n) {Γ Δ : List (Ty (Sym E))} (hΓ : ∀ t ∈ Γ, t.HasFields n)
    (hΔ : ∀ t ∈ Δ, t.HasFields n) (σ : Store) :
    σ.rescale (s ++ c) (Γ.map (Ty.onDims (asBase c.length))) (Δ.map (Ty.onDims (asBase c.length))) = σ.scale s c Γ Δ := by
  unfold Store.rescale Store.scale
  rw [rescaleAll_asBase hl hΓ, List.zipWith_map_left]
  congr 1
  generalize σ.vecs = ls
  induction Δ generalizing ls with
  | nil => rfl
  | cons t Δ ih =>
    cases ls with
    | nil => rfl
    | cons l ls =>
      rw [List.zipWith_cons_cons, List.zipWith_cons_cons, ih (fun u hu => hΔ u (List.mem_cons_of_mem _ hu))]
      congr 1
      refine List.map_congr_left fun v _ => ?_
      rw [Val.rescale, ty_scale_asBase hl (hΔ t List.mem_cons_self)]

/-- **C69, programs.** A program with dimensions as parameters, run on numbers where everything of dimension `D_j` is multiplied by `c j` (and the
unit of base dimension `k` is `s k` times smaller), does the same steps and ends with numbers multiplied as their types say. -/
theorem C69_programs {ss : List Storage} {n : Nat} {dimOf : U → DimVal E} (hdim : ∀ u, (dimOf u).length = n) {F : List (Func (Sym E) U)}
    (hF : GenericFuncs ss n dimOf F) {Γ Δ : List (Ty (Sym E))} (hΓ : ∀ t ∈ Γ, t.HasFields n) (hΔ : ∀ t ∈ Δ, t.HasFields n) {p : Cmd (Sym E) U}
    (h : CmdChecks ss n (fun u => (dimOf u).closed) (GenericCall n) F Γ Δ p) (fac : U → ℝ) {s c : List ℝ} (hl : s.length = n)
    (hs : ∀ x ∈ s, 0 < x) (hc : ∀ x ∈ c, 0 < x) (fuel : Nat) {σ : Store} (hσ : σ.HasTys Γ Δ) :
    p.exec n (fun u => fac u * (dimOf u).closed.genericScale s []) F fuel (σ.scale s c Γ Δ) =
      (p.exec n fac F fuel σ).map (Store.scale s c Γ Δ) ∧
    ∀ σ', p.exec n fac F fuel σ = some σ' → σ'.HasTys Γ Δ := by
  have H := dimHom_asBase (E := E) n c.length
  have hL : ∀ d : DimVal (Sym E), d.length = n → (asBase c.length d).length = n + c.length := fun d h => by rw [asBase_length, h]
  have hty : ∀ σ : Store, σ.HasTys (Γ.map (Ty.onDims (asBase c.length))) (Δ.map (Ty.onDims (asBase c.length))) ↔ σ.HasTys Γ Δ := by
    intro σ
    unfold Store.HasTys
    rw [argsHaveTy_onDims, List.forall₂_map_right_iff]
    simp only [hasTy_onDims]
  have main := C21_programs_partial (E := ℚ) (U := U) (dimOf := fun u => asBase c.length (dimOf u).closed)
    (fun u => ⟨hL _ (by rw [DimVal.closed, List.length_map]; exact hdim u), fun _ _ => trivial⟩) (funcsCheck_hom hF H hL)
    (Γ := Γ.map (Ty.onDims (asBase c.length))) (Δ := Δ.map (Ty.onDims (asBase c.length)))
    (fun t ht => by obtain ⟨u, hu, rfl⟩ := List.mem_map.1 ht; exact wf_hom hL (hΓ u hu))
    (cmdChecks_hom H (fun _ _ => faithful_hom H hL) h) fac (s := s ++ c)
    (fun x hx => (List.mem_append.1 hx).elim (hs x) (hc x)) fuel ((hty σ).2 hσ)
  have hFc := fun g hg => (hF g hg).2.2
  have e0 : ∀ u, DimVal.scale (s ++ c) (asBase c.length (dimOf u).closed) = (dimOf u).closed.genericScale s [] := by
    intro u
    rw [scale_asBase (by rw [DimVal.closed, List.length_map, hl, hdim u]), genericScale_closed]
  have e3 : Store.rescale (s ++ c) (Γ.map (Ty.onDims (asBase c.length))) (Δ.map (Ty.onDims (asBase c.length))) = Store.scale s c Γ Δ :=
    funext fun σ => rescale_asBase hl hΓ hΔ σ
  rw [exec_hom H hFc h, exec_hom H hFc h, e3] at main
  simp only [e0, hty] at main
  exact main

/-- **C69, functions.** `f(scaled arguments) = scaled f(arguments)`, where a number of a type with dimension `∏ j, D_j ^ a_j * ∏ k, B_k ^ b_k` is
multiplied by `∏ j, c j ^ a_j * ∏ k, s k ^ b_k`. -/
theorem C69_functions {ss : List Storage} {n : Nat} {dimOf : U → DimVal E} (hdim : ∀ u, (dimOf u).length = n) {F : List (Func (Sym E) U)}
    (hF : GenericFuncs ss n dimOf F) {f : Func (Sym E) U} (hf : f ∈ F) (hv : f.vecs = []) (fac : U → ℝ) {s c : List ℝ} (hl : s.length = n)
    (hs : ∀ x ∈ s, 0 < x) (hc : ∀ x ∈ c, 0 < x) (fuel : Nat) {args : List (Val ℝ ℝ)} (hargs : ArgsHaveTy args f.params) :
    f.apply n (fun u => fac u * (dimOf u).closed.genericScale s []) F fuel (scaleAll s c f.params args) =
      (f.apply n fac F fuel args).map (Val.smul (f.ret.genericScale s c)) := by
  obtain ⟨h1, h2, h3, h4⟩ := hF f hf
  have hΓ : ∀ t ∈ f.params, t.HasFields n := fun t ht => h1 t (List.mem_append_left _ ht)
  rw [hv] at h3
  have H := dimHom_asBase (E := E) n c.length
  have hL : ∀ d : DimVal (Sym E), d.length = n → (asBase c.length d).length = n + c.length := fun d h => by rw [asBase_length, h]
  obtain ⟨m1, m2⟩ := C69_programs hdim hF hΓ (Δ := []) (by simp) h3 fac hl hs hc fuel (σ := ⟨args, []⟩) ⟨hargs, .nil⟩
  unfold Func.apply
  change (do let σ ← f.body.exec n _ F fuel (Store.scale s c f.params [] ⟨args, []⟩); _) = _
  rw [m1]
  cases hx : f.body.exec n fac F fuel ⟨args, []⟩ with
  | none => rfl
  | some σ =>
    obtain ⟨hσ, -⟩ := m2 σ hx
    have main := C21_terms_partial (E := ℚ) (U := U) (dimOf := fun u => asBase c.length (dimOf u).closed)
      (fun u => ⟨hL _ (by rw [DimVal.closed, List.length_map]; exact hdim u), fun _ _ => trivial⟩)
      (Γ := f.params.map (Ty.onDims (asBase c.length)))
      (fun t ht => by obtain ⟨u, hu, rfl⟩ := List.mem_map.1 ht; exact wf_hom hL (hΓ u hu))
      (checks_hom H (fun _ _ => faithful_hom H hL) h4) fac ((argsHaveTy_onDims _ _).2 hσ) (s := s ++ c)
      (fun x hx => (List.mem_append.1 hx).elim (hs x) (hc x))
    have e0 : ∀ u, DimVal.scale (s ++ c) (asBase c.length (dimOf u).closed) = (dimOf u).closed.genericScale s [] := by
      intro u
      rw [scale_asBase (by rw [DimVal.closed, List.length_map, hl, hdim u]), genericScale_closed]
    have ev : ∀ fac ρ, (f.result.onDims (asBase c.length) (n + c.length)).eval (n + c.length) fac ρ = f.result.eval n fac ρ :=
      fun fac ρ => eval_hom H h4
    have er : Val.rescale (s ++ c) (f.ret.onDims (asBase c.length)) = Val.smul (f.ret.genericScale s c) := by
      funext v; rw [Val.rescale, ty_scale_asBase hl h2]
    rw [ev, ev, rescaleAll_asBase hl hΓ, er] at main
    simp only [e0] at main
    exact main

/-! ### What the signature alone says -/

theorem genericScale_param {n : Nat} (hn : 0 < n) (x : ℝ) : (DimVal.param n 0 : DimVal (Sym E)).genericScale (List.replicate n 1) [x] = x := by
  obtain ⟨m, rfl⟩ := Nat.exists_eq_succ_of_ne_zero hn.ne'
  have h1 : DimVal.degree 0 (DimVal.param (m + 1) 0 : DimVal (Sym E)) = 1 := rfl
  unfold DimVal.genericScale
  rw [List.mapIdx_cons, List.mapIdx_nil, h1]
  have h2 : (List.zipWith (fun (x : ℝ) (e : Sym E) => x ^ ((e.at fun _ => 0 : ℚ) : ℝ)) (List.replicate (m + 1) 1) (DimVal.param (m + 1) 0)).prod = 1 := by
    refine List.prod_eq_one fun y hy => ?_
    obtain ⟨i, hi, rfl⟩ := List.mem_iff_getElem.1 hy
    simp
  rw [h2]; simp

theorem genericScale_ones {n : Nat} {d : DimVal (Sym E)} : d.genericScale (List.replicate n 1) [] = 1 := by
  unfold DimVal.genericScale
  rw [List.mapIdx_nil, List.prod_nil, mul_one]
  refine List.prod_eq_one fun y hy => ?_
  obtain ⟨i, hi, rfl⟩ := List.mem_iff_getElem.1 hy
  simp

section
variable {ss : List Storage} {n : Nat} (hn : 0 < n) {dimOf : U → DimVal E} (hdim : ∀ u, (dimOf u).length = n) {F : List (Func (Sym E) U)}
  (hF : GenericFuncs ss n dimOf F) {f : Func (Sym E) U} (hf : f ∈ F) (hv : f.vecs = []) (fac : U → ℝ) (fuel : Nat)
include hn hdim hF hf hv

/-- One parameter, everything else unchanged. -/
theorem apply_one {args : List (Val ℝ ℝ)} (hargs : ArgsHaveTy args f.params) {x : ℝ} (hx : 0 < x) :
    f.apply n fac F fuel (scaleAll (List.replicate n 1) [x] f.params args) =
      (f.apply n fac F fuel args).map (Val.smul (f.ret.genericScale (List.replicate n 1) [x])) := by
  have := C69_functions hdim hF hf hv fac (s := List.replicate n 1) (c := [x]) (by simp)
    (fun y hy => by rw [List.eq_of_mem_replicate hy]; exact one_pos) (by simpa using hx) fuel hargs
  simpa only [genericScale_ones, mul_one] using this

/-- `fn f<const D: Dimension>(x: Quantity<S, D>) -> Quantity<S', D>`: such a function is homogeneous, whatever its code. -/
theorem C69_linear {s s' : Storage} (hp : f.params = [.quantity s (DimVal.param n 0)]) (hr : f.ret = .quantity s' (DimVal.param n 0))
    {r : Raw ℝ} (hlen : r.length = s.numDims) {x : ℝ} (hx : 0 < x) :
    f.apply n fac F fuel [.quantity (r.map (· * x))] = (f.apply n fac F fuel [.quantity r]).map (Val.smul x) := by
  have := apply_one hn hdim hF hf hv fac fuel (args := [.quantity r]) (by rw [hp]; exact .cons hlen .nil) hx
  rw [hp, hr] at this
  simpa only [scaleAll, List.zipWith_cons_cons, List.zipWith_nil_left, Ty.genericScale, genericScale_param hn, Val.smul] using this

/-- `fn f<const D: Dimension>(x: Quantity<S, D>) -> T` with a plain `T` (a number, `bool`, `Ordering`): the result does not depend on the size of `x`. -/
theorem C69_sizeless {s : Storage} (hp : f.params = [.quantity s (DimVal.param n 0)]) (hr : f.ret.isPlain = true)
    {r : Raw ℝ} (hlen : r.length = s.numDims) {x : ℝ} (hx : 0 < x) :
    f.apply n fac F fuel [.quantity (r.map (· * x))] = f.apply n fac F fuel [.quantity r] := by
  have := apply_one hn hdim hF hf hv fac fuel (args := [.quantity r]) (by rw [hp]; exact .cons hlen .nil) hx
  have h1 : f.ret.genericScale (List.replicate n 1) [x] = 1 := by
    cases hr' : f.ret <;> rw [hr'] at hr <;> first | rfl | (simp [Ty.isPlain] at hr)
  have h2 : Val.smul (1 : ℝ) = id := funext Val.smul_one
  rw [hp, h1, h2, Option.map_id] at this
  simpa only [scaleAll, List.zipWith_cons_cons, List.zipWith_nil_left, Ty.genericScale, genericScale_param hn, Val.smul, id] using this

/-- `fn f<const D: Dimension>() -> Quantity<S, D>` can only return zero. -/
theorem C69_only_zero {s : Storage} (hp : f.params = []) (hr : f.ret = .quantity s (DimVal.param n 0)) {r : Raw ℝ}
    (h : f.apply n fac F fuel [] = some (.quantity r)) : ∀ y ∈ r, y = 0 := by
  have := apply_one hn hdim hF hf hv fac fuel (args := []) (by rw [hp]; exact .nil) (x := 2) two_pos
  rw [hp, hr] at this
  simp only [scaleAll, List.zipWith_nil_left, Ty.genericScale, genericScale_param hn] at this
  rw [h] at this
  simp only [Option.map_some, Option.some.injEq, Val.smul, Val.quantity.injEq] at this
  intro y hy
  obtain ⟨i, hi, rfl⟩ := List.mem_iff_getElem.1 hy
  have e : r[i]? = (r.map (· * (2 : ℝ)))[i]? := by rw [← this]
  rw [List.getElem?_map, List.getElem?_eq_getElem hi, Option.map_some, Option.some.injEq] at e
  linarith
end

/-! ### What is refused -/

/-- Quantities of two different parameters cannot be added, subtracted, assigned so or compared, although an instance may give both the same dimension. -/
theorem C69_refused (ss : List Storage) {n : Nat} (hn : 0 < n) {i j : Nat} (hij : i ≠ j) (s s' : Storage) (l r : RefKind) (out : OpOut (Sym E))
    {t : Trait} (ht : t ∈ [Trait.add, .sub, .addAssign, .subAssign, .partialEq, .partialOrd]) :
    ¬ OpTyped ss n t ⟨l, .quantity s (DimVal.param n i)⟩ ⟨r, .quantity s' (DimVal.param n j)⟩ out := by
  rw [C20_exactly]
  rintro ⟨st, -, h⟩
  have hd : (DimVal.param n i : DimVal (Sym E)) ≠ DimVal.param n j := by
    obtain ⟨m, rfl⟩ := Nat.exists_eq_succ_of_ne_zero hn.ne'
    intro e
    simp only [DimVal.param, Nat.succ_eq_add_one, List.replicate_succ, List.cons.injEq, Sym.var.injEq] at e
    exact hij e.1
  cases t <;> simp at ht <;> exact hd h.2.1

/-- rustc does not simplify: `a * b` and `b * a` have different types if their dimensions are parameters, so `a * b + b * a` is refused, and the square
root of a square of dimension `D` has the type `Quantity<S, { D.mul(2).div_2() }>`, which is not `Quantity<S, D>`. With dimensions put for the
parameters both are accepted. -/
theorem C69_not_simplified (s : Storage) (hs : s.isFloat = true) :
    (∃ p q : DimVal (Sym E), DimVal.add (DimVal.param 1 0) (DimVal.param 1 1) = some p ∧ DimVal.add (DimVal.param 1 1) (DimVal.param 1 0) = some q ∧
      p ≠ q ∧ ∀ v, DimVal.atDims v p = DimVal.atDims v q) ∧
    ∃ p q : DimVal (Sym E), Fn.squared.sig 1 [.quantity s (DimVal.param 1 0)] = some (.quantity s p) ∧
      Fn.sqrt.sig 1 [.quantity s p] = some (.quantity s q) ∧ q ≠ DimVal.param 1 0 ∧ ∀ v, (v 0).length = 1 → DimVal.atDims v q = v 0 := by
  refine ⟨⟨_, _, rfl, rfl, ?_, fun v => ?_⟩, [.mul (.var 0) 2], [.div2 (.mul (.var 0) 2)], ?_, ?_, ?_, fun v hv => ?_⟩
  · simp
  · simp [DimVal.atDims, Sym.at, add_comm]
  · simp only [Fn.sig, hs, if_true]; rfl
  · simp only [Fn.sig, hs, if_true]; rfl
  · simp [DimVal.param]
  · match hw : v 0, hv with
    | [q], _ => simp [DimVal.atDims, Sym.at, hw]
end

/-! ### Rational exponents -/

/-- Exponents in normal form, with the arithmetic of the generated code (for feature `rational-dimensions`: `E = Ratio`). -/
abbrev Normal (E : Type) [Exponent E] [LawfulExponent E] := {e : E // Canon e}

section
variable {E : Type} [Exponent E] [LawfulExponent E] [FieldOps E] [LawfulFieldOps E]

/-- The arithmetic of the generated code, which gives exponents in normal form. -/
instance : FieldOps (Normal E) where
  entry a := (FieldOps.entry a.1).attach.map fun c => ⟨c.1, by rw [LawfulFieldOps.entry_spec a.2 c.2]; exact a.2⟩
  zero := ⟨FieldOps.zero, LawfulFieldOps.zero_canon⟩
  add a b := (FieldOps.add a.1 b.1).attach.map fun c => ⟨c.1, (LawfulFieldOps.add_spec a.2 b.2 c.2).1⟩
  sub a b := (FieldOps.sub a.1 b.1).attach.map fun c => ⟨c.1, (LawfulFieldOps.sub_spec a.2 b.2 c.2).1⟩
  neg a := (FieldOps.neg a.1).attach.map fun c => ⟨c.1, (LawfulFieldOps.neg_spec a.2 c.2).1⟩
  mul a n := (FieldOps.mul a.1 n).attach.map fun c => ⟨c.1, (LawfulFieldOps.mul_spec a.2 c.2).1⟩
  div2 a := (FieldOps.div2 a.1).attach.map fun c => ⟨c.1, (LawfulFieldOps.div2_spec a.2 c.2).1⟩
  div3 a := (FieldOps.div3 a.1).attach.map fun c => ⟨c.1, (LawfulFieldOps.div3_spec a.2 c.2).1⟩

theorem attach_map {α β : Type} {o : Option α} {f : {x // o = some x} → β} {y : β} (h : o.attach.map f = some y) : ∃ x, ∃ hx : o = some x, f ⟨x, hx⟩ = y := by
  obtain ⟨⟨x, hx⟩, -, rfl⟩ := Option.map_eq_some_iff.1 h
  exact ⟨x, hx, rfl⟩

/-- All theorems of this file hold for both kinds of exponents. -/
instance : ExactFields (Normal E) where
  value a := val a.1
  zero := LawfulFieldOps.zero_val
  add {a b _} h := by obtain ⟨x, hx, rfl⟩ := attach_map h; exact (LawfulFieldOps.add_spec a.2 b.2 hx).2
  sub {a b _} h := by obtain ⟨x, hx, rfl⟩ := attach_map h; exact (LawfulFieldOps.sub_spec a.2 b.2 hx).2
  neg {a _} h := by obtain ⟨x, hx, rfl⟩ := attach_map h; exact (LawfulFieldOps.neg_spec a.2 hx).2
  mul {a _ _} h := by obtain ⟨x, hx, rfl⟩ := attach_map h; exact (LawfulFieldOps.mul_spec a.2 hx).2
  div2 {a _} h := by obtain ⟨x, hx, rfl⟩ := attach_map h; exact (LawfulFieldOps.div2_spec a.2 hx).2
  div3 {a _} h := by obtain ⟨x, hx, rfl⟩ := attach_map h; exact (LawfulFieldOps.div3_spec a.2 hx).2

example : ExactFields (Normal Ratio) := inferInstance
end

/-! ### A concrete program -/

/-- `fn energy<const M: Dimension, const V: Dimension>(m: Quantity<f64, M>, v: Quantity<f64, V>) -> Quantity<f64, { M.add(V.mul(2)) }>
{ m * v.squared() }` and `fn twice<...>(m, v) -> ... { let mut e = m * v.squared(); e = energy(m, v); e + e }`, in a system with two base dimensions. -/
def C69.ret : DimVal (Sym Int) := [.add (.var 0) (.mul (.var 1) 2), .add (.var 0) (.mul (.var 1) 2)]

/-- `m * v.squared()` where `m`, `v` are variables `x`, `x + 1` -/
def C69.prod (x : Nat) : Tm (Sym Int) Bool :=
  .op ⟨.mul, qG, qG⟩ ⟨2, DimVal.param 2 0, DimVal.param 2 0, [.mul (.var 1) 2, .mul (.var 1) 2], .f64, .f64, .f64⟩ (.var x)
    (.call .squared [.quantity .f64 (DimVal.param 2 1)] (.cons (.var (x + 1)) .nil))

/-- The two functions. -/
def C69.funcs : List (Func (Sym Int) Bool) :=
  [⟨[.quantity .f64 (DimVal.param 2 0), .quantity .f64 (DimVal.param 2 1)], [], .quantity .f64 C69.ret, .skip, C69.prod 0⟩,
   ⟨[.quantity .f64 (DimVal.param 2 0), .quantity .f64 (DimVal.param 2 1), .quantity .f64 C69.ret], [], .quantity .f64 C69.ret,
    .call 2 0 (.cons (.var 0) (.cons (.var 1) .nil)) [],
    .op ⟨.add, qG, qG⟩ ⟨2, C69.ret, C69.ret, C69.ret, .f64, .f64, .f64⟩ (.var 2) (.var 2)⟩]

theorem C69.prod_checks (Γ : List (Ty (Sym Int))) (x : Nat) (h0 : Γ[x]? = some (.quantity .f64 (DimVal.param 2 0)))
    (h1 : Γ[x + 1]? = some (.quantity .f64 (DimVal.param 2 1))) :
    Checks [.f64] 2 (fun u => (twoUnits u).closed) (GenericCall 2) Γ (.inl (C69.prod x, .quantity .f64 C69.ret)) := by
  refine .op (lt := ⟨.value, .quantity .f64 (DimVal.param 2 0)⟩) (rt := ⟨.value, .quantity .f64 [.mul (.var 1) 2, .mul (.var 1) 2]⟩)
    (out := .value (.quantity .f64 C69.ret)) (by decide) rfl (.var h0) ?_ ⟨rfl, rfl, rfl, rfl, .f64, rfl, _, _, rfl, rfl, rfl⟩ rfl
  exact .call ⟨trivial, by simp, trivial⟩ rfl (.cons (.var h1) .nil)

theorem C69.checked : GenericFuncs [.f64] 2 twoUnits C69.funcs := by
  intro f hf
  simp only [C69.funcs, List.mem_cons, List.not_mem_nil, or_false] at hf
  rcases hf with rfl | rfl
  · refine ⟨?_, ?_, .skip, C69.prod_checks _ 0 rfl rfl⟩
    · intro t ht d hd
      simp only [List.append_nil, List.mem_cons, List.not_mem_nil, or_false] at ht
      rcases ht with rfl | rfl <;> (cases hd; rfl)
    · intro d hd; cases hd; rfl
  · refine ⟨?_, ?_, .call (fn := C69.funcs[0]) rfl rfl (.cons (.var rfl) (.cons (.var rfl) .nil)) .nil .nil, ?_⟩
    · intro t ht d hd
      simp only [List.append_nil, List.mem_cons, List.not_mem_nil, or_false] at ht
      rcases ht with rfl | rfl | rfl <;> (cases hd; rfl)
    · intro d hd; cases hd; rfl
    · exact .op (lt := ⟨.value, .quantity .f64 C69.ret⟩) (rt := ⟨.value, .quantity .f64 C69.ret⟩)
        (out := .value (.quantity .f64 C69.ret)) (by decide) rfl (.var rfl) (.var rfl) ⟨rfl, rfl, rfl, rfl, .f64, rfl, _, _, rfl, rfl, rfl⟩ rfl

section
variable [IdealFns]

-- 2 kg and 3 m/s: `energy` gives 18, `twice` 36, in every instance.
example : C69.funcs[0].apply 2 (fun _ => 1) C69.funcs 1 [.quantity [2], .quantity [3]] = some (.quantity [2 * 3 ^ 2]) ∧
    C69.funcs[1].apply 2 (fun _ => 1) C69.funcs 1 [.quantity [2], .quantity [3], .quantity [0]] = some (.quantity [2 * 3 ^ 2 + 2 * 3 ^ 2]) := by
  refine ⟨?_, ?_⟩
  · simp only [Func.apply, C69.funcs, List.getElem_cons_zero, Cmd.exec]
    rfl
  · simp only [Func.apply, C69.funcs, List.getElem_cons_zero, List.getElem_cons_succ, Cmd.exec, List.getElem?_cons_zero,
      Option.bind_eq_bind, Option.bind_some, Tms.eval, Tm.eval, List.getElem?_cons_succ, Option.pure_def, List.mapM_nil]
    rfl

-- what `C69_functions` says about `energy` with masses 5 times larger and speeds 7 times larger
example : C69.funcs[0].apply 2 (fun _ => 1) C69.funcs 1 [.quantity [2 * 5], .quantity [3 * 7]] =
    (C69.funcs[0].apply 2 (fun _ => 1) C69.funcs 1 [.quantity [2], .quantity [3]]).map (Val.smul (5 * 7 ^ 2)) := by
  have main := C69_functions (by intro u; cases u <;> rfl) C69.checked (f := C69.funcs[0]) (by simp) rfl (fun _ => 1) (s := [1, 1]) (c := [5, 7]) rfl
    (by simp) (by simp) 1 (args := [.quantity [2], .quantity [3]]) (.cons rfl (.cons rfl .nil))
  have h0 : (DimVal.param 2 0 : DimVal (Sym Int)).genericScale [1, 1] [5, 7] = 5 := by
    norm_num [DimVal.genericScale, DimVal.param, DimVal.degree, Sym.degree, Sym.at, List.mapIdx_cons, List.replicate]
  have h1 : (DimVal.param 2 1 : DimVal (Sym Int)).genericScale [1, 1] [5, 7] = 7 := by
    norm_num [DimVal.genericScale, DimVal.param, DimVal.degree, Sym.degree, Sym.at, List.mapIdx_cons, List.replicate]
  have h2 : C69.ret.genericScale [1, 1] [5, 7] = 5 * 7 ^ 2 := by
    norm_num [DimVal.genericScale, C69.ret, DimVal.degree, Sym.degree, Sym.at, List.mapIdx_cons]
  have h3 : ∀ u, (twoUnits u).closed.genericScale [1, 1] [] = 1 := by
    intro u; norm_num [DimVal.genericScale, List.mapIdx_nil]
    cases u <;> norm_num [twoUnits, DimVal.closed]
  have h4 : scaleAll [1, 1] [5, 7] C69.funcs[0].params [.quantity [2], .quantity [3]] = [.quantity [2 * 5], .quantity [3 * 7]] := by
    simp only [C69.funcs, List.getElem_cons_zero, scaleAll, List.zipWith_cons_cons, List.zipWith_nil_left, Ty.genericScale, h0, h1, Val.smul, List.map]
  have h5 : C69.funcs[0].ret.genericScale [1, 1] [5, 7] = 5 * 7 ^ 2 := h2
  rw [h4, h5] at main
  simpa only [h3, mul_one] using main
end

/-- `fn double<const D: Dimension>(q: Quantity<f64, D>) -> Quantity<f64, D> { q + q }`, `fn nothing<const D: Dimension>() -> Quantity<f64, D>
{ Default::default() }` and `fn positive<const D: Dimension>(q: Quantity<f64, D>) -> bool { q.is_positive() }` -/
def C69.small : List (Func (Sym Int) Bool) :=
  [⟨[.quantity .f64 (DimVal.param 1 0)], [], .quantity .f64 (DimVal.param 1 0), .skip,
    .op ⟨.add, qG, qG⟩ ⟨1, DimVal.param 1 0, DimVal.param 1 0, DimVal.param 1 0, .f64, .f64, .f64⟩ (.var 0) (.var 0)⟩,
   ⟨[], [], .quantity .f64 (DimVal.param 1 0), .skip, .call (.default .f64 (DimVal.param 1 0)) [] .nil⟩,
   ⟨[.quantity .f64 (DimVal.param 1 0)], [], .bool, .skip, .call .isPositive [.quantity .f64 (DimVal.param 1 0)] (.cons (.var 0) .nil)⟩]

-- They meet the hypotheses of `C69_linear`, `C69_only_zero` and `C69_sizeless`.
example : GenericFuncs [.f64] 1 (fun _ => [1]) C69.small := by
  intro f hf
  simp only [C69.small, List.mem_cons, List.not_mem_nil, or_false] at hf
  rcases hf with rfl | rfl | rfl
  · refine ⟨?_, ?_, .skip, ?_⟩
    · intro t ht d hd
      simp only [List.append_nil, List.mem_cons, List.not_mem_nil, or_false] at ht
      subst ht; cases hd; rfl
    · intro d hd; cases hd; rfl
    · exact .op (lt := ⟨.value, .quantity .f64 (DimVal.param 1 0)⟩) (rt := ⟨.value, .quantity .f64 (DimVal.param 1 0)⟩)
        (out := .value (.quantity .f64 (DimVal.param 1 0))) (by decide) rfl (.var rfl) (.var rfl) ⟨rfl, rfl, rfl, rfl, .f64, rfl, _, _, rfl, rfl, rfl⟩ rfl
  · refine ⟨by simp, ?_, .skip, .call ⟨trivial, by simp, rfl⟩ rfl .nil⟩
    intro d hd; cases hd; rfl
  · refine ⟨?_, ?_, .skip, .call ⟨trivial, by simp, trivial⟩ rfl (.cons (.var rfl) .nil)⟩
    · intro t ht d hd
      simp only [List.append_nil, List.mem_cons, List.not_mem_nil, or_false] at ht
      subst ht; cases hd; rfl
    · intro d hd; cases hd

end Diman
