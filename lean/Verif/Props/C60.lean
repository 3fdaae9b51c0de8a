import Verif.Spec.Rebase
import Verif.Props.C12
import Verif.Props.C13
import Verif.Props.C21
import Verif.Props.C30
import Verif.Proofs.Natural
/-!
# C60 — a unit system with other base units measures the same quantities
Conversion factors are exact real numbers (`exactReal`), exponents integers or fractions.
-/
set_option linter.unusedSectionVars false
namespace Diman
open LawfulExponent

section
variable {E : Type} [Exponent E] [LawfulExponent E]
attribute [local instance] exactReal

/-- `∏ k, c k ^ f k` -/
noncomputable def prodPow (c : Str → ℝ) (bd : List Str) (f : Str → ℚ) : ℝ := (bd.map fun k => c k ^ ((f k : ℚ) : ℝ)).prod

theorem prodPow_pos {c : Str → ℝ} (hc : ∀ k, 0 < c k) (bd : List Str) (f : Str → ℚ) : 0 < prodPow c bd f := by
  refine List.prod_pos fun x hx => ?_
  obtain ⟨k, _, rfl⟩ := List.mem_map.1 hx
  exact Real.rpow_pos_of_pos (hc k) _

theorem prodPow_add {c : Str → ℝ} (hc : ∀ k, 0 < c k) (bd : List Str) (f g : Str → ℚ) :
    prodPow c bd (fun k => f k + g k) = prodPow c bd f * prodPow c bd g := by
  induction bd with
  | nil => simp [prodPow]
  | cons k bd ih =>
    simp only [prodPow, List.map_cons, List.prod_cons] at ih ⊢
    rw [ih, Rat.cast_add, Real.rpow_add (hc k)]; ring

theorem prodPow_sub {c : Str → ℝ} (hc : ∀ k, 0 < c k) (bd : List Str) (f g : Str → ℚ) :
    prodPow c bd (fun k => f k - g k) = prodPow c bd f / prodPow c bd g := by
  rw [eq_div_iff (prodPow_pos hc bd g).ne', ← prodPow_add hc]
  congr 1; funext k; ring

theorem prodPow_mul {c : Str → ℝ} (hc : ∀ k, 0 < c k) (bd : List Str) (f : Str → ℚ) (q : ℚ) :
    prodPow c bd (fun k => f k * q) = prodPow c bd f ^ ((q : ℚ) : ℝ) := by
  induction bd with
  | nil => simp [prodPow]
  | cons k bd ih =>
    have := prodPow_pos hc bd f
    simp only [prodPow, List.map_cons, List.prod_cons] at ih this ⊢
    rw [ih, Rat.cast_mul, Real.rpow_mul (hc k).le, Real.mul_rpow (Real.rpow_pos_of_pos (hc k) _).le this.le]

theorem prodPow_zero (c : Str → ℝ) (bd : List Str) : prodPow c bd (fun _ => 0) = 1 := by
  refine List.prod_eq_one fun x hx => ?_
  obtain ⟨k, _, rfl⟩ := List.mem_map.1 hx
  simp

theorem prodPow_single {c : Str → ℝ} {bd : List Str} (hn : bd.Nodup) {d : Str} (hd : d ∈ bd) :
    prodPow c bd (fun k => if k = d then 1 else 0) = c d := by
  induction bd with
  | nil => cases hd
  | cons k bd ih =>
    rw [List.nodup_cons] at hn
    simp only [prodPow, List.map_cons, List.prod_cons] at ih ⊢
    by_cases hk : k = d
    · subst hk
      have : (bd.map fun j => c j ^ (((if j = k then (1 : ℚ) else 0) : ℚ) : ℝ)).prod = 1 := by
        refine List.prod_eq_one fun x hx => ?_
        obtain ⟨j, hj, rfl⟩ := List.mem_map.1 hx
        rw [if_neg (fun e : j = k => hn.1 (e ▸ hj))]; simp
      rw [this]; simp
    · rw [ih hn.2 ((List.mem_cons.1 hd).resolve_left (Ne.symm hk)), if_neg hk]; simp

mutual
/-- An expression over rescaled factors has the rescaled value. -/
theorem Expr.specMag_scale {c : Str → ℝ} (hc : ∀ k, 0 < c k) (bd : List Str) {ρ ρ' : Str → ℝ} {x : Str → Str → ℚ} (e : Expr (Atom ℝ) E)
    (h : ∀ y, Atom.other y ∈ e.vals → 0 ≤ ρ' y ∧ ρ y = ρ' y * prodPow c bd (x y)) :
    e.specMag (Atom.mag ρ) = e.specMag (Atom.mag ρ') * prodPow c bd (fun k => e.specExpo (Atom.expo x) k) := by
  cases e with
  | value f => exact Factor.specMag_scale hc bd f h
  | binary l o r =>
    have h1 := Expr.specMag_scale hc bd l fun y hy => h y (List.mem_append_left _ hy)
    have h2 := Factor.specMag_scale hc bd r fun y hy => h y (List.mem_append_right _ hy)
    cases o
    · simp only [Expr.specMag, Expr.specExpo, h1, h2, prodPow_add hc]
      exact mul_mul_mul_comm ..
    · simp only [Expr.specMag, Expr.specExpo, h1, h2, prodPow_sub hc]
      exact mul_div_mul_comm ..
/-- The same for a factor. -/
theorem Factor.specMag_scale {c : Str → ℝ} (hc : ∀ k, 0 < c k) (bd : List Str) {ρ ρ' : Str → ℝ} {x : Str → Str → ℚ} (e : Factor (Atom ℝ) E)
    (h : ∀ y, Atom.other y ∈ e.vals → 0 ≤ ρ' y ∧ ρ y = ρ' y * prodPow c bd (x y)) :
    e.specMag (Atom.mag ρ) = e.specMag (Atom.mag ρ') * prodPow c bd (fun k => e.specExpo (Atom.expo x) k) := by
  cases e with
  | value a =>
    cases a with
    | concrete m => simp [Factor.specMag, Factor.specExpo, Atom.mag, Atom.expo, prodPow_zero]
    | other y => exact (h y (by simp [Factor.vals])).2
  | power a q =>
    cases a with
    | concrete m => simp [Factor.specMag, Factor.specExpo, Atom.mag, Atom.expo, prodPow_zero]
    | other y =>
      obtain ⟨h1, h2⟩ := h y (by simp [Factor.vals])
      simp only [Factor.specMag, Factor.specExpo, Atom.mag, Atom.expo, h2, prodPow_mul hc]
      exact Real.mul_rpow h1 (prodPow_pos hc bd _).le
  | paren e => exact Expr.specMag_scale hc bd e h
end

mutual
theorem Expr.mem_idents {C : Type} (e : Expr (Atom C) E) {y : Str} (h : Atom.other y ∈ e.vals) : y ∈ e.idents := by
  cases e with
  | value f => exact Factor.mem_idents f h
  | binary l _ r =>
    simp only [Expr.vals, List.mem_append] at h
    simp only [Expr.idents, List.mem_append]
    exact h.imp (Expr.mem_idents l) (Factor.mem_idents r)
theorem Factor.mem_idents {C : Type} (e : Factor (Atom C) E) {y : Str} (h : Atom.other y ∈ e.vals) : y ∈ e.idents := by
  cases e with
  | value a => simp only [Factor.vals, List.mem_singleton] at h; subst h; simp [Factor.idents]
  | power a _ => simp only [Factor.vals, List.mem_singleton] at h; subst h; simp [Factor.idents]
  | paren e => exact Expr.mem_idents e h
end

mutual
theorem Expr.specExpo_same {ρ ρ' : Str → Str → ℚ} (k : Str) (e : Expr (Atom ℝ) E) (h : ∀ y ∈ e.idents, ρ y k = ρ' y k) :
    e.specExpo (Atom.expo ρ) k = e.specExpo (Atom.expo ρ') k := by
  cases e with
  | value f => exact Factor.specExpo_same k f h
  | binary l o r =>
    have h1 := Expr.specExpo_same k l fun y hy => h y (List.mem_append_left _ hy)
    have h2 := Factor.specExpo_same k r fun y hy => h y (List.mem_append_right _ hy)
    cases o <;> simp only [Expr.specExpo, h1, h2]
theorem Factor.specExpo_same {ρ ρ' : Str → Str → ℚ} (k : Str) (e : Factor (Atom ℝ) E) (h : ∀ y ∈ e.idents, ρ y k = ρ' y k) :
    e.specExpo (Atom.expo ρ) k = e.specExpo (Atom.expo ρ') k := by
  cases e with
  | value a => cases a with
    | concrete m => rfl
    | other y => exact h y (by simp [Factor.idents])
  | power a q => cases a with
    | concrete m => rfl
    | other y => simp only [Factor.specExpo, Atom.expo]; rw [h y (by simp [Factor.idents])]
  | paren e => exact Expr.specExpo_same k e h
end

/-- The step for an expression whose identifiers are already known to correspond. -/
theorem Defs.Holds.rebase {D D' : Defs E ℝ} {c : Str → ℝ} (hc : ∀ k, 0 < c k) {bd : List Str} (hp : ∀ y, 0 < D'.magOf y) {x : Str}
    {e : Expr (Atom ℝ) E} (hold : D.Holds x e) (h1 : ∀ k, D'.unitExpo x k = e.specExpo (Atom.expo D'.unitExpo) k)
    (h2 : D'.magOf x = e.specMag (Atom.mag D'.magOf))
    (ih : ∀ y ∈ e.idents, (∀ k, D'.unitExpo y k = D.unitExpo y k) ∧ D.magOf y = D'.magOf y * D.size c bd y) :
    D.Has x ∧ (∀ k, D'.unitExpo x k = D.unitExpo x k) ∧ D.magOf x = D'.magOf x * D.size c bd x := by
  obtain ⟨a, b, m⟩ := hold
  have hk : ∀ k, D'.unitExpo x k = D.unitExpo x k := fun k => by
    rw [h1, b]; exact Expr.specExpo_same k e fun y hy => (ih y hy).1 k
  refine ⟨a, hk, ?_⟩
  rw [m, h2, Expr.specMag_scale hc bd (x := D.unitExpo) e fun y hy => ⟨(hp y).le, (ih y (e.mem_idents hy)).2⟩]
  congr 1
  unfold Defs.size prodPow
  simp only [b]

/-- **C60.** Let every statement of an accepted unit system `t'` be true in another system `D`, the base unit of base dimension `k` of `t'`
having the size `c k > 0` there. Then every unit and constant `x` of `t'` has in `t'` the exponents that it has in `D`, and its conversion
factors differ by the size of what measures one in `t'`: the factor in `D` is the factor in `t'` times `∏ k, c k ^ (exponent of k)`. -/
theorem C60_rebase (factor' : Prefix → ℝ) (t' : UnresolvedTemplates E ℝ) (D D' : Defs E ℝ)
    (accepted' : runUnitSystem factor' t' = some (D', []))
    (literals' : (UnresolvedTemplates.expand (MagOps.one E) factor' t').GoodExponents)
    (distinct' : D'.baseDimensions.Nodup) (positive' : ∀ x, 0 < D'.magOf x)
    (c : Str → ℝ) (hc : ∀ k, 0 < c k)
    (units : ∀ x ∈ (UnresolvedTemplates.expand (MagOps.one E) factor' t').units, x.TrueIn D c)
    (constants : ∀ x ∈ t'.constants, D.Holds x.name x.rhs) (x : Str) (generated : D'.Has x) :
    D.Has x ∧ (∀ k, D'.unitExpo x k = D.unitExpo x k) ∧ D.magOf x = D'.magOf x * D.size c D'.baseDimensions x := by
  obtain ⟨res, h⟩ := accepted_of_run accepted'
  obtain ⟨eqD, eqU, eqC⟩ := C07_equations factor' t' D' accepted' literals'
  have kinds := C12_kinds factor' t' D' accepted'
  set u := UnresolvedTemplates.expand (MagOps.one E) factor' t' with hu
  have named : ∀ {y}, D'.Has y ↔ u.NamesUnitOrConstant y := by
    intro y
    constructor
    · rintro (⟨U, hU, rfl⟩ | ⟨C, hC, rfl⟩)
      · obtain ⟨v, hv, dm, _, rfl⟩ := h.unit_from hU
        exact .inl ⟨v, hv, rfl⟩
      · obtain ⟨v, hv, dm, _, rfl⟩ := h.const_from hC
        exact .inr ⟨v, hv, rfl⟩
    · rintro (⟨v, hv, rfl⟩ | ⟨v, hv, rfl⟩)
      · obtain ⟨U, hU, hn, _⟩ := eqU v hv
        exact .inl ⟨U, hU, hn⟩
      · obtain ⟨C, hC, hn, _⟩ := eqC v hv
        exact .inr ⟨C, hC, hn⟩
  have nodup := h.nodup
  have gx : Grounded u.definitions x := h.grounded x (by
    simp only [Unresolved.names, List.mem_append, List.mem_map]
    rcases named.1 generated with ⟨v, hv, e⟩ | ⟨v, hv, e⟩
    · exact .inl (.inr ⟨v, hv, e⟩)
    · exact .inr ⟨v, hv, e⟩)
  clear hu
  induction gx with
  | intro x rs hx _ ih =>
    simp only [Unresolved.definitions, List.mem_append, List.mem_map, Prod.mk.injEq] at hx
    rcases hx with (⟨d, hd, rfl, rfl⟩ | ⟨v, hv, rfl, rfl⟩) | ⟨v, hv, rfl, rfl⟩
    · exfalso
      simp only [Unresolved.names] at nodup
      rw [List.append_assoc, List.nodup_append] at nodup
      refine nodup.2.2 d.name (List.mem_map_of_mem hd) d.name ?_ rfl
      simp only [List.mem_append, List.mem_map]
      exact (named.1 generated).imp (fun ⟨v, hv, e⟩ => ⟨v, hv, e⟩) fun ⟨v, hv, e⟩ => ⟨v, hv, e⟩
    · obtain ⟨U, hU, hn, heq⟩ := eqU v hv
      obtain ⟨l1, l2⟩ := h.unit_lookup hU
      rw [hn] at l1 l2
      have tr := units v hv
      have kd := kinds.2.1 v hv
      unfold UnitEntry.TrueIn at tr
      unfold UnitEntry.mentions at kd ih
      cases hdef : v.definition with
      | base d =>
        simp only [hdef] at tr heq kd ih
        obtain ⟨a, b, m⟩ := tr
        have hb : d ∈ baseOf u.units := by
          unfold baseOf
          rw [List.mem_filterMap]
          exact ⟨v, hv, by simp [expand_base hv hdef, hdef]⟩
        obtain ⟨dd, hdd, hbase, rfl⟩ := h.base_units.1 d hb
        have her : dd.rhs = .base () := by
          unfold DimensionEntry.isBase at hbase
          cases hr : dd.rhs with
          | base b => rfl
          | expression ex => rw [hr] at hbase; simp at hbase
        obtain ⟨DD, hDD, hDn, hDe⟩ := eqD dd hdd
        have hk : ∀ k, D'.unitExpo v.name k = D.unitExpo v.name k := fun k => by
          have := hDe k
          rw [her] at this
          rw [l1, heq.1, b, ← hDn, h.dimExpo_eq hDD, this, hDn]
        refine ⟨a, hk, ?_⟩
        have hmem : toSnakecase dd.name ∈ D'.baseDimensions := by
          rw [h.base_dims]
          exact List.mem_map.2 ⟨dd, List.mem_filter.2 ⟨hdd, hbase⟩, rfl⟩
        have : D.size c D'.baseDimensions v.name = c (toSnakecase dd.name) := by
          unfold Defs.size
          simp only [b]
          exact prodPow_single distinct' hmem
        rw [this, l2, heq.2, m]
        exact (one_mul _).symm
      | expression e =>
        simp only [hdef] at tr heq kd ih
        exact tr.rebase hc positive' (fun k => by rw [l1, heq.1]) (by rw [l2, heq.2]) fun y hy =>
          (ih y hy (named.2 (kd y hy))).2
    · obtain ⟨C, hC, hn, q1, q2⟩ := eqC v hv
      obtain ⟨l1, l2⟩ := h.const_lookup hC
      rw [hn] at l1 l2
      exact (constants v hv).rebase hc positive' (fun k => by rw [l1, q1]) (by rw [l2, q2]) fun y hy =>
        (ih y hy (named.2 (kinds.2.2 v hv y hy))).2

/-- **C60, conversions.** The factor for converting between any two units or constants of the same dimension is the same in both systems. -/
theorem C60_conversions (factor' : Prefix → ℝ) (t' : UnresolvedTemplates E ℝ) (D D' : Defs E ℝ)
    (accepted' : runUnitSystem factor' t' = some (D', []))
    (literals' : (UnresolvedTemplates.expand (MagOps.one E) factor' t').GoodExponents)
    (distinct' : D'.baseDimensions.Nodup) (positive' : ∀ x, 0 < D'.magOf x)
    (c : Str → ℝ) (hc : ∀ k, 0 < c k)
    (units : ∀ x ∈ (UnresolvedTemplates.expand (MagOps.one E) factor' t').units, x.TrueIn D c)
    (constants : ∀ x ∈ t'.constants, D.Holds x.name x.rhs) (x y : Str) (hx : D'.Has x) (hy : D'.Has y)
    (same : ∀ k, D'.unitExpo x k = D'.unitExpo y k) : D.magOf x / D.magOf y = D'.magOf x / D'.magOf y := by
  obtain ⟨-, e1, m1⟩ := C60_rebase factor' t' D D' accepted' literals' distinct' positive' c hc units constants x hx
  obtain ⟨-, e2, m2⟩ := C60_rebase factor' t' D D' accepted' literals' distinct' positive' c hc units constants y hy
  have : D.size c D'.baseDimensions x = D.size c D'.baseDimensions y := by
    unfold Defs.size; simp only [← e1, ← e2, same]
  rw [m1, m2, this, mul_div_mul_right]
  exact (prodPow_pos hc _ (D.unitExpo y)).ne'

theorem scale_prodPow [FieldOps E] (c : Str → ℝ) (bd : List Str) (f : Str → ℚ) {d : DimVal E} (h : d.vec = bd.map f) :
    DimVal.scale (bd.map c) d = prodPow c bd f := by
  unfold DimVal.scale prodPow
  rw [h]
  congr 1
  induction bd generalizing d with
  | nil => rfl
  | cons k bd ih =>
    have := @ih (d.drop 1) (by simp only [DimVal.vec, List.map_drop] at h ⊢; rw [h]; rfl)
    simp only [List.map_cons, List.zipWith_cons_cons, this]

theorem prodPow_inv {c : Str → ℝ} (hc : ∀ k, 0 < c k) (bd : List Str) (f : Str → ℚ) :
    prodPow (fun k => (c k)⁻¹) bd f = (prodPow c bd f)⁻¹ := by
  induction bd with
  | nil => simp [prodPow]
  | cons k bd ih =>
    simp only [prodPow, List.map_cons, List.prod_cons, mul_inv] at ih ⊢
    rw [ih, Real.inv_rpow (hc k).le]

/-- **C60, programs.** A program (of the API for which C21 holds) over the units and constants of `t'`, whose base dimensions are `bd`, run
in `t'` instead of `D`, with inputs measured in the new base units, ends with the same variables and vectors measured in the new base units. Expressions
whose type has no dimension (numbers, truth values, orderings, dimensionless quantities) have the same value in both systems. -/
theorem C60_programs [FieldOps E] [LawfulFieldOps E] [DecidableEq E] [IdealFns] (factor' : Prefix → ℝ) (t' : UnresolvedTemplates E ℝ)
    (D D' : Defs E ℝ) (accepted' : runUnitSystem factor' t' = some (D', []))
    (literals' : (UnresolvedTemplates.expand (MagOps.one E) factor' t').GoodExponents)
    (distinct' : D'.baseDimensions.Nodup) (positive' : ∀ x, 0 < D'.magOf x)
    (c : Str → ℝ) (hc : ∀ k, 0 < c k)
    (units : ∀ x ∈ (UnresolvedTemplates.expand (MagOps.one E) factor' t').units, x.TrueIn D c)
    (constants : ∀ x ∈ t'.constants, D.Holds x.name x.rhs)
    {n : Nat} {ss : List Storage} {dimOf : {x // D'.Has x} → DimVal E}
    (hdim : ∀ u, (dimOf u).length = n ∧ (dimOf u).Canonical ∧ (dimOf u).vec = D'.baseDimensions.map (D'.unitExpo u))
    {F : List (Func E {x // D'.Has x})} (hF : FuncsCheck ss n dimOf (FaithfulCall n) F)
    {Γ Δ : List (Ty E)} (hΓ : ∀ t ∈ Γ, t.WF n) {ρ : List (Val ℝ ℝ)} (hρ : ArgsHaveTy ρ Γ) :
    (∀ (p : Cmd E {x // D'.Has x}) (fuel : Nat) (σ : Store), CmdChecks ss n dimOf (FaithfulCall n) F Γ Δ p → σ.HasTys Γ Δ →
      p.exec n (fun u => D'.magOf u.1) F fuel (σ.rescale (D'.baseDimensions.map fun k => (c k)⁻¹) Γ Δ) =
        (p.exec n (fun u => D.magOf u.1) F fuel σ).map (Store.rescale (D'.baseDimensions.map fun k => (c k)⁻¹) Γ Δ)) ∧
    ∀ (e : Tm E {x // D'.Has x}) (t : Ty E), Checks ss n dimOf (FaithfulCall n) Γ (.inl (e, t)) →
      (t.dim n = none ∨ t.dim n = some (DimVal.none n)) →
      e.eval n (fun u => D'.magOf u.1) (rescaleAll (D'.baseDimensions.map fun k => (c k)⁻¹) Γ ρ) = e.eval n (fun u => D.magOf u.1) ρ := by
  have hs : ∀ x ∈ D'.baseDimensions.map fun k => (c k)⁻¹, (0 : ℝ) < x := by
    intro x hx
    obtain ⟨k, _, rfl⟩ := List.mem_map.1 hx
    exact inv_pos.2 (hc k)
  have hf : (fun u : {x // D'.Has x} => D'.magOf u) =
      fun u : {x // D'.Has x} => D.magOf u.1 * DimVal.scale (D'.baseDimensions.map fun k => (c k)⁻¹) (dimOf u) := by
    funext u
    obtain ⟨-, e1, m1⟩ := C60_rebase factor' t' D D' accepted' literals' distinct' positive' c hc units constants u u.2
    have e2 : D'.unitExpo u = D.unitExpo u := funext e1
    rw [scale_prodPow _ _ _ (hdim u).2.2, prodPow_inv hc, e2, m1]
    exact (mul_inv_cancel_right₀ (prodPow_pos hc _ _).ne' _).symm
  refine ⟨fun p fuel σ hp hσ => ?_, fun e t he ht => ?_⟩
  · rw [hf]
    exact (C21_programs_partial (fun u => ⟨(hdim u).1, (hdim u).2.1⟩) hF hΓ hp _ hs fuel hσ).1
  · rw [hf]
    exact C21_plain_results_partial (fun u => ⟨(hdim u).1, (hdim u).2.1⟩) hΓ he ht _ hρ hs

variable [FieldOps E] [LawfulFieldOps E] [WrittenExponent E] [IdealFns] [IdealText]

theorem factor_exact (us : UnitPowers E ℝ) : us.factor ℝ = (us.map fun ue => ue.1.mag ^ (((ue.2 : ℚ) : ℚ) : ℝ)).prod := by
  unfold UnitPowers.factor
  have key : ∀ (us : UnitPowers E ℝ) (a : ℝ), us.foldl (fun f ue => Prims.mul ℝ .f64 f
      (Prims.into .f64 (MagOps.pow (TextPrims.fromF64 (Prims.into .f64 ue.1.mag : ℝ)) (Exponent.ofInt ue.2 : E) : ℝ))) a =
      a * (us.map fun ue => ue.1.mag ^ (((ue.2 : ℚ) : ℚ) : ℝ)).prod := by
    intro us
    induction us with
    | nil => intro a; simp
    | cons u us ih =>
      intro a
      rw [List.foldl_cons, ih, List.map_cons, List.prod_cons]
      change a * u.1.mag ^ ((val (Exponent.ofInt u.2 : E) : ℚ) : ℝ) * _ = _
      rw [ofInt_val]
      ring
  rw [key]
  exact one_mul _

/-- **C60, texts.** If the symbols of `t'` are the symbols of the same units in `t`, and the base dimensions are the same, then a text from
which `t'` reads the numbers `r'` of dimension `d` is read in `t` as `r'` times `∏ k, c k ^ d k` (floats and vectors), unless reading it
in `t` overflows the exponents. -/
theorem C60_texts (factor factor' : Prefix → ℝ) (t t' : UnresolvedTemplates E ℝ) (D D' : Defs E ℝ)
    (accepted : runUnitSystem factor t = some (D, [])) (accepted' : runUnitSystem factor' t' = some (D', []))
    (literals : (UnresolvedTemplates.expand (MagOps.one E) factor t).LitExponents (WrittenExponent.Ok : E → Prop))
    (literals' : (UnresolvedTemplates.expand (MagOps.one E) factor' t').LitExponents (WrittenExponent.Ok : E → Prop))
    (literals'' : (UnresolvedTemplates.expand (MagOps.one E) factor' t').GoodExponents)
    (distinct' : D'.baseDimensions.Nodup) (positive' : ∀ x, 0 < D'.magOf x)
    (c : Str → ℝ) (hc : ∀ k, 0 < c k)
    (units : ∀ x ∈ (UnresolvedTemplates.expand (MagOps.one E) factor' t').units, x.TrueIn D c)
    (constants : ∀ x ∈ t'.constants, D.Holds x.name x.rhs)
    (base : D'.baseDimensions = D.baseDimensions)
    (symbols : ∀ U' ∈ D'.units, ∀ s, U'.symbol = some s → ∃ U ∈ D.units, U.name = U'.name ∧ U.symbol = some s)
    (s : Storage) (d : DimVal E) (canonical : d.Canonical) (text : Str) (r' : Raw ℝ)
    (read' : deserializeStr ℝ D' s d text = some (.ok r'))
    (o : Outcome (Raw ℝ)) (compiled : deserializeStr ℝ D s d text = some o) (noPanic : o ≠ .panic) :
    o = .ok (r'.map (· * DimVal.scale (D'.baseDimensions.map c) d)) := by
  obtain ⟨res, h⟩ := accepted_of_run accepted
  obtain ⟨res', h'⟩ := accepted_of_run accepted'
  have main := C60_rebase factor' t' D D' accepted' literals'' distinct' positive' c hc units constants
  have step : ∀ {ws : List Str} {us' : UnitPowers E ℝ}, NamesUnits D' ws us' → ∃ us : UnitPowers E ℝ, NamesUnits D ws us ∧
      (∀ k, us.expo k = us'.expo k) ∧ us.factor ℝ = us'.factor ℝ * prodPow c D'.baseDimensions us'.expo := by
    intro ws us' hn
    simp only [factor_exact]
    induction hn with
    | nil => exact ⟨[], .nil, fun _ => rfl, by
        have : (UnitPowers.expo ([] : UnitPowers E ℝ)) = fun _ => 0 := rfl
        rw [this, prodPow_zero]; simp⟩
    | @cons w u' ws us' hx _ ih =>
      obtain ⟨us, n1, n2, n3⟩ := ih
      obtain ⟨hU', sym, hs, hw⟩ := hx
      obtain ⟨U, hU, e1, e2⟩ := symbols _ hU' sym hs
      obtain ⟨-, q1, q2⟩ := main u'.1.name (.inl ⟨_, hU', rfl⟩)
      obtain ⟨a1, a2⟩ := h.unit_lookup hU
      obtain ⟨b1, b2⟩ := h'.unit_lookup hU'
      rw [e1] at a1 a2
      refine ⟨(U, u'.2) :: us, .cons ⟨hU, sym, e2, hw⟩ n1, fun k => ?_, ?_⟩
      · have := n2 k
        simp only [UnitPowers.expo, List.map_cons, List.sum_cons] at this ⊢
        rw [this, ← a1, ← q1, b1]
      · have hz : U.mag = u'.1.mag * prodPow c D'.baseDimensions (D.unitExpo u'.1.name) := by rw [← a2, q2, b2]; rfl
        have hp : 0 < u'.1.mag := by rw [← b2]; exact positive' _
        simp only [List.map_cons, List.prod_cons, n3, hz]
        rw [Real.mul_rpow hp.le (prodPow_pos hc _ _).le, ← prodPow_mul hc]
        have : prodPow c D'.baseDimensions (UnitPowers.expo (u' :: us')) =
            prodPow c D'.baseDimensions (fun k => D.unitExpo u'.1.name k * (u'.2 : ℚ)) * prodPow c D'.baseDimensions (UnitPowers.expo us') := by
          rw [← prodPow_add hc]
          congr 1
          funext k
          simp only [UnitPowers.expo, List.map_cons, List.sum_cons]
          rw [← q1, b1, mul_comm]
        rw [this]
        ring
  have dim : ∀ {us us' : UnitPowers E ℝ}, (∀ k, us.expo k = us'.expo k) → HasDimension D' us' d →
      HasDimension D us d ∧ DimVal.scale (D'.baseDimensions.map c) d = prodPow c D'.baseDimensions us'.expo := by
    intro us us' he hd
    refine ⟨?_, scale_prodPow _ _ _ hd⟩
    unfold HasDimension at hd ⊢
    rw [hd, base]
    exact List.map_congr_left fun k _ => (he k).symm
  cases hs : s.isFloat
  · obtain ⟨pre, inside, post, h1, h2, h3, h4, nums, h5, h6, xs, h7, ws, h8, us', h9, h10, rfl⟩ :=
      (C30_vector_iff factor' t' D' accepted' literals' s hs d canonical text _ read' (by simp) r').1 rfl
    refine (C30_vector_iff factor t D accepted literals s hs d canonical text o compiled noPanic _).2 ?_
    obtain ⟨us, n1, n2, n3⟩ := step h9
    obtain ⟨g1, g2⟩ := dim n2 h10
    refine ⟨pre, inside, post, h1, h2, h3, h4, nums, h5, h6, xs, h7, ws, h8, us, n1, g1, ?_⟩
    rw [g2, List.map_map]
    refine List.map_congr_left fun x _ => ?_
    change us'.factor ℝ * x * _ = us.factor ℝ * x
    rw [n3]; ring
  · obtain ⟨num, ws, h1, x, h2, us', h3, h4, rfl⟩ :=
      (C28_float_iff factor' t' D' accepted' literals' s hs d canonical text _ read' (by simp) r').1 rfl
    refine (C28_float_iff factor t D accepted literals s hs d canonical text o compiled noPanic _).2 ?_
    obtain ⟨us, n1, n2, n3⟩ := step h3
    obtain ⟨g1, g2⟩ := dim n2 h4
    refine ⟨num, ws, h1, x, h2, us, n1, g1, ?_⟩
    rw [g2, List.map_singleton]
    congr 1
    change x * us'.factor ℝ * _ = x * us.factor ℝ
    rw [n3]; ring
end

/-! ## A concrete pair of systems: metres and centimetres -/
section
open Sample
attribute [local instance] Sample.exactMag exactReal

theorem C60.hom : @MagHom Int ℚ ℝ exactMag exactReal (fun q : ℚ => (q : ℝ)) := by
  refine @MagHom.mk Int ℚ ℝ exactMag exactReal _ ?_ ?_ ?_ ?_
  · exact Rat.cast_one
  · exact Rat.cast_mul
  · exact Rat.cast_div
  · intro a e
    change ((a ^ e : ℚ) : ℝ) = (a : ℝ) ^ (((e : ℚ) : ℚ) : ℝ)
    rw [Rat.cast_zpow, Rat.cast_intCast, Real.rpow_intCast]

/-- A system whose base units are the centimetre and the second. -/
def C60.small : UnresolvedTemplates Int ℚ where
  quantityTypes := [str!"Quantity"]
  dimensionTypes := [str!"Dimension"]
  dimensions := [⟨str!"Length", .base ()⟩, ⟨str!"Time", .base ()⟩]
  units := [⟨str!"centimeters", some (str!"cm"), [], [], none, .base (str!"Length")⟩,
    ⟨str!"seconds", some (str!"s"), [], [], none, .base (str!"Time")⟩,
    unit (str!"meters") (.binary (.value (c 100)) .mul (v (str!"centimeters"))) (some (str!"m")),
    unit (str!"accelerations") (.binary (.value (v (str!"meters"))) .div (pw (str!"seconds") 2))]
  constants := []

/-- What it compiles to. -/
def C60.smallDefs : Defs Int ℚ where
  dimensionType := str!"Dimension"
  quantityType := str!"Quantity"
  dimensions := [⟨str!"Length", [(str!"length", 1)]⟩, ⟨str!"Time", [(str!"time", 1)]⟩]
  units := [⟨str!"accelerations", [(str!"length", 1), (str!"time", -2)], 100, none, false⟩,
    ⟨str!"centimeters", [(str!"length", 1)], 1, some (str!"cm"), true⟩,
    ⟨str!"meters", [(str!"length", 1)], 100, some (str!"m"), false⟩,
    ⟨str!"seconds", [(str!"time", 1)], 1, some (str!"s"), true⟩]
  constants := []
  baseDimensions := [str!"length", str!"time"]

deriving instance DecidableEq for DimensionDef, UnitDef, ConstantDef, Defs

theorem C60.small_accepted : runUnitSystem exactFactor C60.small = some (C60.smallDefs, []) := by
  have h : (resolveDefsFuel (UnresolvedTemplates.expand 1 exactFactor C60.small)).map (fun p => (p.1, p.2.isEmpty)) =
      some (C60.smallDefs, true) := by decide +kernel
  unfold runUnitSystem
  rw [resolveDefs_eq_fuel]
  change resolveDefsFuel (UnresolvedTemplates.expand 1 exactFactor C60.small) = _
  cases hr : resolveDefsFuel (UnresolvedTemplates.expand 1 exactFactor C60.small) with
  | none => rw [hr] at h; simp at h
  | some p =>
    rw [hr] at h
    simp only [Option.map_some, Option.some.injEq, Prod.mk.injEq, List.isEmpty_iff] at h
    rw [← h.1, ← h.2]

/-- The same units measured in metres and seconds. -/
noncomputable def C60.large : Defs Int ℝ where
  dimensionType := str!"Dimension"
  quantityType := str!"Quantity"
  dimensions := [⟨str!"Length", [(str!"length", 1)]⟩, ⟨str!"Time", [(str!"time", 1)]⟩]
  units := [⟨str!"accelerations", [(str!"length", 1), (str!"time", -2)], 1, none, false⟩,
    ⟨str!"centimeters", [(str!"length", 1)], 1 / 100, some (str!"cm"), false⟩,
    ⟨str!"meters", [(str!"length", 1)], 1, some (str!"m"), true⟩,
    ⟨str!"seconds", [(str!"time", 1)], 1, some (str!"s"), true⟩]
  constants := []
  baseDimensions := [str!"length", str!"time"]

/-- The sizes of the new base units: a centimetre is a hundredth of a metre. -/
noncomputable def C60.size (k : Str) : ℝ := if k = str!"length" then 1 / 100 else 1

theorem C60.expo_length (k : Str) : (Dims.expo ([(str!"length", (1 : Int))] : Dims Int) k) = if k = str!"length" then 1 else 0 := by
  unfold Dims.expo Dims.get
  by_cases h : str!"length" = k
  · subst h; simp [val]
  · rw [if_neg h, if_neg (Ne.symm h)]; rfl

theorem C60.expo_time (k : Str) : (Dims.expo ([(str!"time", (1 : Int))] : Dims Int) k) = if k = str!"time" then 1 else 0 := by
  unfold Dims.expo Dims.get
  by_cases h : str!"time" = k
  · subst h; simp [val]
  · rw [if_neg h, if_neg (Ne.symm h)]; rfl

theorem C60.expo_acc (k : Str) : (Dims.expo ([(str!"length", (1 : Int)), (str!"time", -2)] : Dims Int) k) =
    (if k = str!"length" then 1 else 0) - (if k = str!"time" then 1 else 0) * 2 := by
  unfold Dims.expo Dims.get Dims.get
  by_cases h : str!"length" = k
  · subst h; simp [val]
  · by_cases h' : str!"time" = k
    · subst h'; simp [val]
    · simp only [h, if_false, Ne.symm h, h', Ne.symm h', Dims.get]; norm_num

-- The hypotheses of `C60_rebase` hold for this pair; what it says about the acceleration: 1 m/s² is 100 cm/s² and 1 = 100 * (1/100).
example : let D' := C60.smallDefs.mapMag (fun q : ℚ => (q : ℝ))
    (C60.large.magOf (str!"accelerations") = D'.magOf (str!"accelerations") *
      C60.large.size C60.size D'.baseDimensions (str!"accelerations")) ∧ D'.magOf (str!"accelerations") = 100 ∧
      C60.large.size C60.size D'.baseDimensions (str!"accelerations") = 1 / 100 := by
  intro D'
  let := C60.hom
  have acc := @runUnitSystem_mapMag Int ℚ ℝ _ exactMag exactReal (fun q : ℚ => (q : ℝ)) C60.hom exactFactor C60.small
  rw [C60.small_accepted] at acc
  have hpos : ∀ k, 0 < C60.size k := fun k => by unfold C60.size; split <;> norm_num
  have mags : ∀ x, 0 < D'.magOf x := by
    intro x
    have hu : ∀ U ∈ D'.units, 0 < U.mag := by
      intro U hU
      obtain ⟨V, hV, rfl⟩ := List.mem_map.1 hU
      have : ∀ V ∈ C60.smallDefs.units, 0 < V.mag := by decide +kernel
      exact Rat.cast_pos.2 (this V hV)
    unfold Defs.magOf
    cases hf : D'.units.find? (fun u => u.name = x) with
    | none => exact one_pos
    | some U => exact hu U (List.mem_of_find?_eq_some hf)
  have u1 : ∀ k, C60.large.unitExpo (str!"centimeters") k = if k = str!"length" then 1 else 0 := C60.expo_length
  have u2 : ∀ k, C60.large.unitExpo (str!"seconds") k = if k = str!"time" then 1 else 0 := C60.expo_time
  have u3 : ∀ k, C60.large.unitExpo (str!"meters") k = if k = str!"length" then 1 else 0 := C60.expo_length
  have u4 : ∀ k, C60.large.unitExpo (str!"accelerations") k =
    (if k = str!"length" then 1 else 0) - (if k = str!"time" then 1 else 0) * 2 := C60.expo_acc
  have m1 : C60.large.magOf (str!"centimeters") = 1 / 100 := rfl
  have m2 : C60.large.magOf (str!"seconds") = 1 := rfl
  have m3 : C60.large.magOf (str!"meters") = 1 := rfl
  have m4 : C60.large.magOf (str!"accelerations") = 1 := rfl
  have main := C60_rebase _ _ C60.large D' acc (C07_goodExponents_int _) (by decide +kernel) mags C60.size hpos ?_ (fun x hx => by cases hx)
    (str!"accelerations") (.inl ⟨_, List.mem_cons_self, rfl⟩)
  · have m5 : D'.magOf (str!"accelerations") = 100 := by
      change ((100 : ℚ) : ℝ) = 100
      norm_num
    refine ⟨main.2.2, m5, ?_⟩
    have := main.2.2
    rw [m4, m5] at this
    linarith
  · intro x hx
    have hx' : x ∈ [(⟨str!"centimeters", some (str!"cm"), none, .base (str!"Length"), none⟩ : UnitEntry Int ℝ),
        ⟨str!"seconds", some (str!"s"), none, .base (str!"Time"), none⟩,
        ⟨str!"meters", some (str!"m"), none, .expression (.binary (.value (.value (.concrete ((100 : ℚ) : ℝ)))) .mul
          (.value (.other (str!"centimeters")))), none⟩,
        ⟨str!"accelerations", none, none, .expression (.binary (.value (.value (.other (str!"meters")))) .div
          (.power (.other (str!"seconds")) 2)), none⟩] := hx
    simp only [List.mem_cons, List.not_mem_nil, or_false] at hx'
    rcases hx' with rfl | rfl | rfl | rfl
    · exact ⟨.inl ⟨_, .tail _ (.head _), rfl⟩, u1, m1⟩
    · exact ⟨.inl ⟨_, .tail _ (.tail _ (.tail _ (.head _))), rfl⟩, u2, m2⟩
    · refine ⟨.inl ⟨_, .tail _ (.tail _ (.head _)), rfl⟩, fun k => ?_, ?_⟩
      · simp only [Expr.specExpo, Factor.specExpo, Atom.expo, u1, u3, zero_add]
      · simp only [Expr.specMag, Factor.specMag, Atom.mag, m1, m3]
        change (1 : ℝ) = ((100 : ℚ) : ℝ) * (1 / 100)
        norm_num
    · refine ⟨.inl ⟨_, .head _, rfl⟩, fun k => ?_, ?_⟩
      · simp only [Expr.specExpo, Factor.specExpo, Atom.expo, u2, u3, u4]
        rfl
      · simp only [Expr.specMag, Factor.specMag, Atom.mag, m2, m3, m4]
        change (1 : ℝ) = 1 / (1 : ℝ) ^ _
        rw [Real.one_rpow]; norm_num
end
end Diman
