import Verif.Proofs.Scale
/-!
# C21 — results do not depend on the choice of base units
Programs, type checking, execution and the change of base units are defined in `Spec/Program.lean`. `FaithfulCall` excludes, besides
the `_unchecked` functions and reading out in a unit of another dimension, two kinds of quotients that the generated code computes
wrongly; for those the property is false (`C21_unit_div_quantity_refuted`, `C21_number_div_unit_refuted`).
-/
set_option linter.unusedSectionVars false
namespace Diman
open LawfulExponent
variable {E U : Type} [Exponent E] [LawfulExponent E] [FieldOps E] [LawfulFieldOps E] [DecidableEq E] [IdealFns]

theorem rescaleAll_getElem? {s : List ℝ} {Γ : List (Ty E)} {ρ : List (Val ℝ ℝ)} {x : Nat} {t : Ty E} (h : Γ[x]? = some t) :
    (rescaleAll s Γ ρ)[x]? = (ρ[x]?).map (Val.rescale s t) := by
  unfold rescaleAll
  rw [List.getElem?_zipWith, h]
  cases ρ[x]? <;> rfl

theorem smul_plain {s : List ℝ} {t : Ty E} (ht : t.isPlain = true) (v : Val ℝ ℝ) : v.rescale s t = v := by
  unfold Val.rescale
  cases t <;> simp [Ty.isPlain] at ht <;> exact Val.smul_one v

theorem rescaleAll_plain {s : List ℝ} {ts : List (Ty E)} (ht : ∀ u ∈ ts, u.isPlain = true) {vs : List (Val ℝ ℝ)} (hl : vs.length = ts.length) :
    rescaleAll s ts vs = vs := by
  unfold rescaleAll
  induction ts generalizing vs with
  | nil => cases vs <;> simp_all
  | cons t ts ih =>
    cases vs with
    | nil => simp at hl
    | cons v vs =>
      rw [List.zipWith_cons_cons, smul_plain (ht t (by simp)), ih (fun u hu => ht u (by simp [hu])) (by simpa using hl)]

/-- Everything about one expression or argument list: its type is of the unit system, values have their types, and evaluation commutes
with the change of base units. -/
def ScaleInv (n : Nat) (dimOf : U → DimVal E) (Γ : List (Ty E)) (fac : U → ℝ) (ρ : List (Val ℝ ℝ)) (s : List ℝ) :
    Sum (Tm E U × Ty E) (Tms E U × List (Ty E)) → Prop
  | .inl (e, t) => t.WF n ∧ (∀ v, e.eval n fac ρ = some v → v.HasTy t) ∧
      e.eval n (fun u => fac u * DimVal.scale s (dimOf u)) (rescaleAll s Γ ρ) = (e.eval n fac ρ).map (Val.rescale s t)
  | .inr (es, ts) => (∀ t ∈ ts, t.WF n) ∧ (∀ vs, es.eval n fac ρ = some vs → ArgsHaveTy vs ts) ∧
      es.eval n (fun u => fac u * DimVal.scale s (dimOf u)) (rescaleAll s Γ ρ) = (es.eval n fac ρ).map (rescaleAll s ts)

theorem checks_scale {ss : List Storage} {n : Nat} {dimOf : U → DimVal E} (hdim : ∀ u, (dimOf u).length = n ∧ (dimOf u).Canonical)
    {Γ : List (Ty E)} (hΓ : ∀ t ∈ Γ, t.WF n) {fac : U → ℝ} {ρ : List (Val ℝ ℝ)} (hρ : ArgsHaveTy ρ Γ) {s : List ℝ} (hs : ∀ x ∈ s, 0 < x)
    {j} (h : Checks ss n dimOf (FaithfulCall n) Γ j) : ScaleInv n dimOf Γ fac ρ s j := by
  induction h with
  | @var x t hx =>
    refine ⟨hΓ _ (List.mem_of_getElem? hx), ?_, rescaleAll_getElem? hx⟩
    intro v hv
    simp only [Tm.eval] at hv
    obtain ⟨hlt, e1⟩ := List.getElem?_eq_some_iff.1 hx
    obtain ⟨hlt', e2⟩ := List.getElem?_eq_some_iff.1 hv
    rw [← e1, ← e2]
    exact List.Forall₂.get hρ hlt' hlt
  | num hr =>
    refine ⟨?_, ?_, ?_⟩
    · intro d hd; injection hd with hd; subst hd; exact ⟨by simp [DimVal.none], DimVal.none_canonical _⟩
    · intro v hv; cases hv; exact hr
    · simp [Tm.eval, Val.rescale, Ty.scale, Val.smul_one]
  | @unit u =>
    refine ⟨?_, ?_, rfl⟩
    · intro d hd; injection hd with hd; subst hd; exact hdim u
    · intro v hv; cases hv; trivial
  | @op o i l r lt rt out res ho hn _ _ hty hres ihl ihr =>
    subst hn
    obtain ⟨wl, tl, el⟩ := ihl
    obtain ⟨wr, tr, er⟩ := ihr
    have hres' : res = out.ty lt.ty := by rw [hres]; cases out <;> rfl
    subst hres'
    clear hres
    refine ⟨(op_rule hs ho hty wl wr).2, ?_, ?_⟩
    · intro v hv
      simp only [Tm.eval, bindM_eq_some] at hv
      obtain ⟨a, ha, b, hb, hv⟩ := hv
      obtain ⟨v', h1, h2⟩ := op_sound ho hty (tl a ha) (tr b hb)
      rw [hv] at h1; cases h1; exact h2
    · simp only [Tm.eval]
      rw [el, er]
      cases ha : l.eval i.n fac ρ with
      | none => rfl
      | some a =>
        cases hb : r.eval i.n fac ρ with
        | none => rfl
        | some b =>
          simp only [Option.map_some, Option.bind_eq_bind, Option.bind_some]
          exact op_scale hs ho hty wl wr (tl a ha) (tr b hb) _ _
  | @call f tys args t hok hsig _ ih =>
    obtain ⟨w, ht, e⟩ := ih
    refine ⟨fn_wf hsig w hok.2.2, ?_, ?_⟩
    · intro v hv
      simp only [Tm.eval, bindM_eq_some] at hv
      obtain ⟨vs, hvs, hv⟩ := hv
      rcases fn_sound hsig (ht vs hvs) with ⟨v', h1, h2⟩ | ⟨-, h1⟩
      · rw [hv] at h1; cases h1; exact h2
      · rw [hv] at h1; cases h1
    · simp only [Tm.eval]
      rw [e]
      cases hvs : args.eval n fac ρ with
      | none => rfl
      | some vs =>
        simp only [Option.map_some, Option.bind_eq_bind, Option.bind_some]
        exact fn_scale hs hok w hsig (ht vs hvs)
  | @plain t g args tys hp hps _ hg ih =>
    obtain ⟨w, ht, e⟩ := ih
    refine ⟨?_, ?_, ?_⟩
    · intro d hd
      cases t <;> simp [Ty.isPlain] at hp
      · injection hd with hd; subst hd; exact ⟨by simp [DimVal.none], DimVal.none_canonical _⟩
      · cases hd
      · cases hd
    · intro v hv
      simp only [Tm.eval, bindM_eq_some] at hv
      obtain ⟨vs, hvs, hv⟩ := hv
      exact hg vs v (ht vs hvs) hv
    · simp only [Tm.eval]
      rw [e]
      cases hvs : args.eval n fac ρ with
      | none => rfl
      | some vs =>
        simp only [Option.map_some, Option.bind_eq_bind, Option.bind_some]
        rw [rescaleAll_plain hps (ht vs hvs).length_eq]
        cases g vs with
        | none => rfl
        | some v => simp [smul_plain hp]
  | @ite c a b t _ _ _ ihc iha ihb =>
    obtain ⟨-, tc, ec⟩ := ihc
    obtain ⟨wa, ta, ea⟩ := iha
    obtain ⟨-, tb, eb⟩ := ihb
    refine ⟨wa, ?_, ?_⟩
    · intro v hv
      simp only [Tm.eval, bindM_eq_some] at hv
      obtain ⟨w, hw, hv⟩ := hv
      split at hv
      · exact ta v hv
      · exact tb v hv
      · cases hv
    · simp only [Tm.eval]
      rw [ec, ea, eb]
      cases hc : c.eval n fac ρ with
      | none => rfl
      | some v =>
        have := tc v hc
        cases v <;> simp only [Val.HasTy] at this
        rename_i b
        cases b <;> rfl
  | nil => exact ⟨by simp, fun vs hvs => by cases hvs; exact .nil, rfl⟩
  | @cons a as t ts _ _ iha ihas =>
    obtain ⟨wa, ta, ea⟩ := iha
    obtain ⟨was, tas, eas⟩ := ihas
    refine ⟨by simpa using ⟨wa, was⟩, ?_, ?_⟩
    · intro vs hvs
      simp only [Tms.eval, bindM_eq_some, pure_eq_some] at hvs
      obtain ⟨v, hv, vs', hvs', rfl⟩ := hvs
      exact .cons (ta v hv) (tas vs' hvs')
    · simp only [Tms.eval]
      rw [ea, eas]
      cases a.eval n fac ρ with
      | none => rfl
      | some v =>
        cases as.eval n fac ρ with
        | none => rfl
        | some vs => rfl

/-- Expressions: after a change of base units (unit factors and inputs rescaled by their dimensions), every expression of the faithful
API of type `t` gives the same result, rescaled by the dimension of `t`; it panics exactly when it did before. -/
theorem C21_terms_partial {ss : List Storage} {n : Nat} {dimOf : U → DimVal E} (hdim : ∀ u, (dimOf u).length = n ∧ (dimOf u).Canonical)
    {Γ : List (Ty E)} (hΓ : ∀ t ∈ Γ, t.WF n) {e : Tm E U} {t : Ty E} (h : Checks ss n dimOf (FaithfulCall n) Γ (.inl (e, t)))
    (fac : U → ℝ) {ρ : List (Val ℝ ℝ)} (hρ : ArgsHaveTy ρ Γ) {s : List ℝ} (hs : ∀ x ∈ s, 0 < x) :
    e.eval n (fun u => fac u * DimVal.scale s (dimOf u)) (rescaleAll s Γ ρ) = (e.eval n fac ρ).map (Val.rescale s t) :=
  (checks_scale hdim hΓ hρ hs h).2.2

/-- In particular a plain result (number, truth value, ordering) or a dimensionless quantity does not change at all. -/
theorem C21_plain_results_partial {ss : List Storage} {n : Nat} {dimOf : U → DimVal E} (hdim : ∀ u, (dimOf u).length = n ∧ (dimOf u).Canonical)
    {Γ : List (Ty E)} (hΓ : ∀ t ∈ Γ, t.WF n) {e : Tm E U} {t : Ty E} (h : Checks ss n dimOf (FaithfulCall n) Γ (.inl (e, t)))
    (ht : t.dim n = none ∨ t.dim n = some (DimVal.none n)) (fac : U → ℝ) {ρ : List (Val ℝ ℝ)} (hρ : ArgsHaveTy ρ Γ) {s : List ℝ}
    (hs : ∀ x ∈ s, 0 < x) :
    e.eval n (fun u => fac u * DimVal.scale s (dimOf u)) (rescaleAll s Γ ρ) = e.eval n fac ρ := by
  rw [C21_terms_partial hdim hΓ h fac hρ hs]
  have : t.scale s = 1 := by
    cases t <;> simp only [Ty.dim, Option.some.injEq, reduceCtorEq, or_false, false_or] at ht <;> simp only [Ty.scale] <;>
      rw [ht, DimVal.scale_none]
  have e1 : Val.rescale s t = id := by funext v; simp [Val.rescale, this, Val.smul_one]
  rw [e1, Option.map_id]; rfl

omit [IdealFns] in
theorem argsHaveTy_set {K M : Type} {ρ : List (Val K M)} {Γ : List (Ty E)} (h : ArgsHaveTy ρ Γ) {x : Nat} {t : Ty E} (hx : Γ[x]? = some t) {v : Val K M}
    (hv : v.HasTy t) : ArgsHaveTy (ρ.set x v) Γ := by
  unfold ArgsHaveTy at h ⊢
  induction h generalizing x with
  | nil => simp at hx
  | @cons w u ρ Γ h h' ih =>
    cases x with
    | zero => simp at hx; subst hx; exact .cons hv h'
    | succ x => exact .cons h (ih (by simpa using hx))

theorem rescaleAll_set {s : List ℝ} {Γ : List (Ty E)} {x : Nat} {t : Ty E} (hx : Γ[x]? = some t) (ρ : List (Val ℝ ℝ)) (v : Val ℝ ℝ) :
    rescaleAll s Γ (ρ.set x v) = (rescaleAll s Γ ρ).set x (v.rescale s t) := by
  unfold rescaleAll
  induction Γ generalizing ρ x with
  | nil => simp
  | cons u Γ ih =>
    cases ρ with
    | nil => simp
    | cons w ρ =>
      cases x with
      | zero => simp at hx; subst hx; rfl
      | succ x => simp [ih (by simpa using hx)]

omit [IdealFns] in
theorem forall₂_lookup {α β : Type} {R : α → β → Prop} {l : List α} {m : List β} (h : List.Forall₂ R l m) {i : Nat} {b : β}
    (hb : m[i]? = some b) : ∃ a, l[i]? = some a ∧ R a b := by
  induction h generalizing i with
  | nil => simp at hb
  | cons hr _ ih =>
    cases i with
    | zero => simp at hb; subst hb; exact ⟨_, rfl, hr⟩
    | succ i => simpa using ih (by simpa using hb)

omit [IdealFns] in
theorem forall₂_setAt {α β : Type} {R : α → β → Prop} {l : List α} {m : List β} (h : List.Forall₂ R l m) {i : Nat} {b : β}
    (hb : m[i]? = some b) {a : α} (ha : R a b) : List.Forall₂ R (l.set i a) m := by
  induction h generalizing i with
  | nil => simp at hb
  | cons hr hrs ih =>
    cases i with
    | zero => simp at hb; subst hb; exact .cons ha hrs
    | succ i => exact .cons hr (ih (by simpa using hb))

/-- The vectors after the change of base units. -/
noncomputable def rescaleVecs (s : List ℝ) (Δ : List (Ty E)) (ls : List (List (Val ℝ ℝ))) : List (List (Val ℝ ℝ)) :=
  List.zipWith (fun t l => l.map (Val.rescale s t)) Δ ls

theorem rescaleVecs_getElem? {s : List ℝ} {Δ : List (Ty E)} {ls : List (List (Val ℝ ℝ))} {a : Nat} {t : Ty E} (h : Δ[a]? = some t) :
    (rescaleVecs s Δ ls)[a]? = (ls[a]?).map (List.map (Val.rescale s t)) := by
  unfold rescaleVecs
  rw [List.getElem?_zipWith, h]
  cases ls[a]? <;> rfl

theorem rescaleVecs_set {s : List ℝ} {Δ : List (Ty E)} {x : Nat} {t : Ty E} (hx : Δ[x]? = some t) (ls : List (List (Val ℝ ℝ)))
    (l : List (Val ℝ ℝ)) : rescaleVecs s Δ (ls.set x l) = (rescaleVecs s Δ ls).set x (l.map (Val.rescale s t)) := by
  unfold rescaleVecs
  induction Δ generalizing ls x with
  | nil => simp
  | cons u Γ ih =>
    cases ls with
    | nil => simp
    | cons w ρ =>
      cases x with
      | zero => simp at hx; subst hx; rfl
      | succ x => simp [ih (by simpa using hx)]

theorem passed_rescale {s : List ℝ} {Δ : List (Ty E)} {ls : List (List (Val ℝ ℝ))}
    (hls : List.Forall₂ (fun (l : List (Val ℝ ℝ)) t => ∀ v ∈ l, v.HasTy t) ls Δ) {vecs : List Nat} {ts : List (Ty E)}
    (h : List.Forall₂ (fun a t => Δ[a]? = some t) vecs ts) :
    ∃ ps, vecs.mapM (ls[·]?) = some ps ∧ vecs.mapM ((rescaleVecs s Δ ls)[·]?) = some (rescaleVecs s ts ps) ∧
      List.Forall₂ (fun (l : List (Val ℝ ℝ)) t => ∀ v ∈ l, v.HasTy t) ps ts := by
  induction h with
  | nil => exact ⟨[], rfl, rfl, .nil⟩
  | @cons a t vecs ts ha _ ih =>
    obtain ⟨ps, e1, e2, h⟩ := ih
    obtain ⟨l, hl, hv⟩ := forall₂_lookup hls ha
    refine ⟨l :: ps, ?_, ?_, .cons hv h⟩
    · simp [List.mapM_cons, hl, e1]
    · simp [List.mapM_cons, rescaleVecs_getElem? ha, hl, e2]; rfl

theorem back_rescale {s : List ℝ} {Δ : List (Ty E)} {vecs : List Nat} {ts : List (Ty E)}
    (h : List.Forall₂ (fun a t => Δ[a]? = some t) vecs ts) {ps : List (List (Val ℝ ℝ))}
    (hp : List.Forall₂ (fun (l : List (Val ℝ ℝ)) t => ∀ v ∈ l, v.HasTy t) ps ts) {ls : List (List (Val ℝ ℝ))}
    (hls : List.Forall₂ (fun (l : List (Val ℝ ℝ)) t => ∀ v ∈ l, v.HasTy t) ls Δ) :
    rescaleVecs s Δ ((vecs.zip ps).foldl (fun vs p => vs.set p.1 p.2) ls) =
      (vecs.zip (rescaleVecs s ts ps)).foldl (fun vs p => vs.set p.1 p.2) (rescaleVecs s Δ ls) ∧
    List.Forall₂ (fun (l : List (Val ℝ ℝ)) t => ∀ v ∈ l, v.HasTy t) ((vecs.zip ps).foldl (fun vs p => vs.set p.1 p.2) ls) Δ := by
  induction h generalizing ps ls with
  | nil => exact ⟨by simp, by simpa using hls⟩
  | @cons a t vecs ts ha _ ih =>
    cases hp with
    | @cons p _ ps _ hp hps =>
      obtain ⟨e1, e2⟩ := ih hps (forall₂_setAt hls ha hp)
      refine ⟨?_, e2⟩
      simp only [List.zip_cons_cons, List.foldl_cons, rescaleVecs, List.zipWith_cons_cons] at e1 ⊢
      rw [e1]
      have := rescaleVecs_set (s := s) ha ls p
      simp only [rescaleVecs] at this
      rw [this]

/-- Whole programs with assignments, local variables, vectors, branches, loops and recursive functions: running on rescaled variables and
vectors ends with the rescaled variables and vectors, for any number of loop iterations and calls. -/
theorem C21_programs_partial {ss : List Storage} {n : Nat} {dimOf : U → DimVal E} (hdim : ∀ u, (dimOf u).length = n ∧ (dimOf u).Canonical)
    {F : List (Func E U)} (hF : FuncsCheck ss n dimOf (FaithfulCall n) F)
    {Γ Δ : List (Ty E)} (hΓ : ∀ t ∈ Γ, t.WF n) {c : Cmd E U} (h : CmdChecks ss n dimOf (FaithfulCall n) F Γ Δ c)
    (fac : U → ℝ) {s : List ℝ} (hs : ∀ x ∈ s, 0 < x) (fuel : Nat) {σ : Store} (hσ : σ.HasTys Γ Δ) :
    c.exec n (fun u => fac u * DimVal.scale s (dimOf u)) F fuel (σ.rescale s Γ Δ) = (c.exec n fac F fuel σ).map (Store.rescale s Γ Δ) ∧
      ∀ σ', c.exec n fac F fuel σ = some σ' → σ'.HasTys Γ Δ := by
  have branch : ∀ {Γ : List (Ty E)} {b : Tm E U} {ρ : List (Val ℝ ℝ)}, (∀ t ∈ Γ, t.WF n) → ArgsHaveTy ρ Γ →
      Checks ss n dimOf (FaithfulCall n) Γ (.inl (b, .bool)) →
      b.eval n (fun u => fac u * DimVal.scale s (dimOf u)) (rescaleAll s Γ ρ) = b.eval n fac ρ ∧
        ∀ v, b.eval n fac ρ = some v → ∃ w, v = .bool w := by
    intro Γ b ρ hΓ hρ hb
    obtain ⟨-, tb, eb⟩ := checks_scale hdim hΓ (fac := fac) hρ hs hb
    refine ⟨?_, ?_⟩
    · rw [eb]
      have : Val.rescale s (.bool : Ty E) = id := by funext v; exact smul_plain rfl v
      rw [this]; exact Option.map_id_apply
    · intro v hv
      have := tb v hv
      cases v <;> simp only [Val.HasTy] at this
      exact ⟨_, rfl⟩
  have index : ∀ {Γ : List (Ty E)} {args : Tms E U} {tys : List (Ty E)} {ρ : List (Val ℝ ℝ)}, (∀ t ∈ Γ, t.WF n) → ArgsHaveTy ρ Γ →
      (∀ u ∈ tys, Ty.isPlain u = true) → Checks ss n dimOf (FaithfulCall n) Γ (.inr (args, tys)) →
      args.eval n (fun u => fac u * DimVal.scale s (dimOf u)) (rescaleAll s Γ ρ) = args.eval n fac ρ := by
    intro Γ args tys ρ hΓ hρ hp ha
    obtain ⟨-, ta, ea⟩ := checks_scale hdim hΓ (fac := fac) hρ hs ha
    rw [ea]
    cases hv : args.eval n fac ρ with
    | none => rfl
    | some vs => simp only [Option.map_some]; rw [rescaleAll_plain hp (ta vs hv).length_eq]
  induction fuel using Nat.strong_induction_on generalizing Γ Δ c σ with
  | _ fuel ihf =>
  induction h generalizing σ with
  | skip => exact ⟨by simp [Cmd.exec], fun σ' h => by simp only [Cmd.exec] at h; cases h; exact hσ⟩
  | @assign Γ Δ x e t hx he =>
    obtain ⟨-, te, ee⟩ := checks_scale hdim hΓ (fac := fac) hσ.1 hs he
    simp only [Cmd.exec, Store.rescale, ee]
    cases hv : e.eval n fac σ.vars with
    | none => exact ⟨rfl, fun σ' h => by cases h⟩
    | some v =>
      refine ⟨?_, fun σ' h => by cases h; exact ⟨argsHaveTy_set hσ.1 hx (te v hv), hσ.2⟩⟩
      exact congrArg some (Store.mk.injEq .. |>.mpr ⟨(rescaleAll_set hx σ.vars v).symm, rfl⟩)
  | @letIn Γ Δ e t c he _ ih =>
    obtain ⟨wt, te, ee⟩ := checks_scale hdim hΓ (fac := fac) hσ.1 hs he
    simp only [Cmd.exec, Store.rescale, ee]
    cases hv : e.eval n fac σ.vars with
    | none => exact ⟨rfl, fun σ' h => by cases h⟩
    | some v =>
      obtain ⟨e1, t1⟩ := ih (σ := { σ with vars := v :: σ.vars }) (by simpa using ⟨wt, hΓ⟩) ⟨.cons (te v hv) hσ.1, hσ.2⟩
      simp only [Store.rescale, rescaleAll, List.zipWith_cons_cons] at e1
      simp only [Option.map_some, Option.bind_eq_bind, Option.bind_some, rescaleAll, e1]
      cases h1 : c.exec n fac F fuel { σ with vars := v :: σ.vars } with
      | none => exact ⟨rfl, fun σ' h => by cases h⟩
      | some σ1 =>
        obtain ⟨h2, h3⟩ := t1 σ1 h1
        obtain ⟨vars, vecs⟩ := σ1
        cases h2 with
        | cons h2 h2' => exact ⟨rfl, fun σ' h => by cases h; exact ⟨h2', h3⟩⟩
  | @seq Γ Δ c d _ _ ihc ihd =>
    obtain ⟨e1, t1⟩ := ihc hΓ hσ
    simp only [Cmd.exec, e1]
    cases h1 : c.exec n fac F fuel σ with
    | none => exact ⟨rfl, fun σ' h => by cases h⟩
    | some σ1 => exact ihd hΓ (t1 σ1 h1)
  | @ite Γ Δ b c d hb _ _ ihc ihd =>
    obtain ⟨eb, tb⟩ := branch hΓ hσ.1 hb
    have eb' : b.eval n (fun u => fac u * DimVal.scale s (dimOf u)) (σ.rescale s Γ Δ).vars = b.eval n fac σ.vars := eb
    simp only [Cmd.exec, eb']
    cases hv : b.eval n fac σ.vars with
    | none => exact ⟨rfl, fun σ' h => by cases h⟩
    | some v =>
      obtain ⟨w, rfl⟩ := tb v hv
      cases w
      · exact ihd hΓ hσ
      · exact ihc hΓ hσ
  | @loop Γ Δ b c hb hc ihc =>
    cases fuel with
    | zero => exact ⟨by simp [Cmd.exec], fun σ' h => by simp [Cmd.exec] at h⟩
    | succ fuel =>
      obtain ⟨eb, tb⟩ := branch hΓ hσ.1 hb
      have eb' : b.eval n (fun u => fac u * DimVal.scale s (dimOf u)) (σ.rescale s Γ Δ).vars = b.eval n fac σ.vars := eb
      simp only [Cmd.exec, eb']
      cases hv : b.eval n fac σ.vars with
      | none => exact ⟨rfl, fun σ' h => by cases h⟩
      | some v =>
        obtain ⟨w, rfl⟩ := tb v hv
        cases w
        · exact ⟨rfl, fun σ' h => by cases h; exact hσ⟩
        · obtain ⟨e1, t1⟩ := ihf fuel (by omega) hΓ hc hσ
          simp only [Option.bind_eq_bind, Option.bind_some, e1]
          cases h1 : c.exec n fac F fuel σ with
          | none => exact ⟨rfl, fun σ' h => by cases h⟩
          | some σ1 => exact ihf fuel (by omega) hΓ (.loop hb hc) (t1 σ1 h1)
  | @vecIn Γ Δ t c _ ih =>
    obtain ⟨e1, t1⟩ := ih (σ := { σ with vecs := [] :: σ.vecs }) hΓ ⟨hσ.1, .cons (by simp) hσ.2⟩
    simp only [Store.rescale, List.zipWith_cons_cons, List.map_nil] at e1
    simp only [Cmd.exec, Store.rescale, e1]
    cases h1 : c.exec n fac F fuel { σ with vecs := [] :: σ.vecs } with
    | none => exact ⟨rfl, fun σ' h => by cases h⟩
    | some σ1 =>
      obtain ⟨h2, h3⟩ := t1 σ1 h1
      obtain ⟨vars, vecs⟩ := σ1
      cases h3 with
      | cons h3 h3' => exact ⟨rfl, fun σ' h => by cases h; exact ⟨h2, h3'⟩⟩
  | @push Γ Δ a e t ha he =>
    obtain ⟨-, te, ee⟩ := checks_scale hdim hΓ (fac := fac) hσ.1 hs he
    obtain ⟨l, hl, hlt⟩ := forall₂_lookup hσ.2 ha
    have e2 : (List.zipWith (fun t l => l.map (Val.rescale s t)) Δ σ.vecs)[a]? = some (l.map (Val.rescale s t)) := by
      have := rescaleVecs_getElem? (s := s) (ls := σ.vecs) ha
      rw [hl] at this; exact this
    simp only [Cmd.exec, Store.rescale, ee, e2, hl]
    cases hv : e.eval n fac σ.vars with
    | none => exact ⟨rfl, fun σ' h => by cases h⟩
    | some v =>
      refine ⟨?_, ?_⟩
      · have := rescaleVecs_set (s := s) ha σ.vecs (l ++ [v])
        simp only [rescaleVecs, List.map_append, List.map_cons, List.map_nil] at this
        exact congrArg some (Store.mk.injEq .. |>.mpr ⟨rfl, this.symm⟩)
      · intro σ' h
        cases h
        refine ⟨hσ.1, forall₂_setAt hσ.2 ha ?_⟩
        intro w hw
        rcases List.mem_append.1 hw with hw | hw
        · exact hlt w hw
        · rw [List.mem_singleton.1 hw]; exact te v hv
  | @load Γ Δ x a g args tys t hx ha hp hargs =>
    have ei := index hΓ hσ.1 hp hargs
    obtain ⟨l, hl, hlt⟩ := forall₂_lookup hσ.2 ha
    have e2 : (List.zipWith (fun t l => l.map (Val.rescale s t)) Δ σ.vecs)[a]? = some (l.map (Val.rescale s t)) := by
      have := rescaleVecs_getElem? (s := s) (ls := σ.vecs) ha
      rw [hl] at this; exact this
    simp only [Cmd.exec, Store.rescale, ei, e2, hl]
    cases hv : args.eval n fac σ.vars with
    | none => exact ⟨rfl, fun σ' h => by cases h⟩
    | some vs =>
      simp only [Option.bind_eq_bind, Option.bind_some]
      cases hg : g vs with
      | none => exact ⟨rfl, fun σ' h => by cases h⟩
      | some i =>
        simp only [Option.bind_some, List.getElem?_map]
        cases hi : l[i]? with
        | none => exact ⟨rfl, fun σ' h => by cases h⟩
        | some v =>
          refine ⟨?_, fun σ' h => by cases h; exact ⟨argsHaveTy_set hσ.1 hx (hlt v (List.mem_of_getElem? hi)), hσ.2⟩⟩
          exact congrArg some (Store.mk.injEq .. |>.mpr ⟨(rescaleAll_set hx σ.vars v).symm, rfl⟩)
  | @store Γ Δ a g args tys e t ha hp hargs he =>
    have ei := index hΓ hσ.1 hp hargs
    obtain ⟨-, te, ee⟩ := checks_scale hdim hΓ (fac := fac) hσ.1 hs he
    obtain ⟨l, hl, hlt⟩ := forall₂_lookup hσ.2 ha
    have e2 : (List.zipWith (fun t l => l.map (Val.rescale s t)) Δ σ.vecs)[a]? = some (l.map (Val.rescale s t)) := by
      have := rescaleVecs_getElem? (s := s) (ls := σ.vecs) ha
      rw [hl] at this; exact this
    simp only [Cmd.exec, Store.rescale, ei, ee, e2, hl]
    cases hv : args.eval n fac σ.vars with
    | none => exact ⟨rfl, fun σ' h => by cases h⟩
    | some vs =>
      simp only [Option.bind_eq_bind, Option.bind_some]
      cases hg : g vs with
      | none => exact ⟨rfl, fun σ' h => by cases h⟩
      | some i =>
        simp only [Option.bind_some]
        cases hw : e.eval n fac σ.vars with
        | none => exact ⟨rfl, fun σ' h => by cases h⟩
        | some v =>
          simp only [Option.map_some, Option.bind_some, List.length_map]
          by_cases hi : i < l.length
          · simp only [if_pos hi]
            refine ⟨?_, ?_⟩
            · have := rescaleVecs_set (s := s) ha σ.vecs (l.set i v)
              simp only [rescaleVecs, List.map_set] at this
              exact congrArg some (Store.mk.injEq .. |>.mpr ⟨rfl, this.symm⟩)
            · intro σ' h
              cases h
              refine ⟨hσ.1, forall₂_setAt hσ.2 ha ?_⟩
              intro w hw'
              rcases List.mem_or_eq_of_mem_set hw' with hw' | rfl
              · exact hlt w hw'
              · exact te _ hw
          · simp only [if_neg hi]
            exact ⟨rfl, fun σ' h => by cases h⟩
  | @len Γ Δ x a t hx ha =>
    obtain ⟨l, hl, -⟩ := forall₂_lookup hσ.2 ha
    have e2 : (List.zipWith (fun t l => l.map (Val.rescale s t)) Δ σ.vecs)[a]? = some (l.map (Val.rescale s t)) := by
      have := rescaleVecs_getElem? (s := s) (ls := σ.vecs) ha
      rw [hl] at this; exact this
    simp only [Cmd.exec, Store.rescale, e2, hl, Option.bind_eq_bind, Option.bind_some, List.length_map]
    refine ⟨?_, fun σ' h => by cases h; exact ⟨argsHaveTy_set hσ.1 hx rfl, hσ.2⟩⟩
    have := rescaleAll_set (s := s) hx σ.vars (.bare [(l.length : ℝ)])
    rw [smul_plain rfl] at this
    exact congrArg some (Store.mk.injEq .. |>.mpr ⟨this.symm, rfl⟩)
  | @call Γ Δ x f args vecs fn hf hx hargs hnd hvecs =>
    cases fuel with
    | zero => exact ⟨by simp [Cmd.exec], fun σ' h => by simp [Cmd.exec] at h⟩
    | succ fuel =>
      obtain ⟨wp, hbody, hres⟩ := hF fn (List.mem_of_getElem? hf)
      obtain ⟨-, ta, ea⟩ := checks_scale hdim hΓ (fac := fac) hσ.1 hs hargs
      obtain ⟨ps, p1, p2, p3⟩ := passed_rescale (s := s) hσ.2 hvecs
      simp only [rescaleVecs] at p2
      simp only [Cmd.exec, hf, Store.rescale, ea, p1, p2, Option.bind_eq_bind, Option.bind_some]
      cases hv : args.eval n fac σ.vars with
      | none => exact ⟨rfl, fun σ' h => by cases h⟩
      | some vs =>
        obtain ⟨e1, t1⟩ := ihf fuel (by omega) wp hbody (σ := ⟨vs, ps⟩) ⟨ta vs hv, p3⟩
        simp only [Store.rescale] at e1
        simp only [Option.map_some, Option.bind_some, e1]
        cases h1 : fn.body.exec n fac F fuel ⟨vs, ps⟩ with
        | none => exact ⟨rfl, fun σ' h => by cases h⟩
        | some σ1 =>
          obtain ⟨h2, h3⟩ := t1 σ1 h1
          obtain ⟨-, tr, er⟩ := checks_scale hdim wp (fac := fac) h2 hs hres
          simp only [Option.map_some, Option.bind_some, Store.rescale, er]
          cases hw : fn.result.eval n fac σ1.vars with
          | none => exact ⟨rfl, fun σ' h => by cases h⟩
          | some v =>
            obtain ⟨b1, b2⟩ := back_rescale (s := s) hvecs h3 hσ.2
            refine ⟨?_, fun σ' h => by cases h; exact ⟨argsHaveTy_set hσ.1 hx (tr v hw), b2⟩⟩
            simp only [rescaleVecs] at b1
            exact congrArg some (Store.mk.injEq .. |>.mpr ⟨(rescaleAll_set hx σ.vars v).symm, b1.symm⟩)

omit [IdealFns] in
/-- More fuel does not change a result: whether and how a program ends is well defined. -/
theorem exec_mono {K M : Type} [Prims K M] [NatCast K] {n : Nat} {fac : U → M} {F : List (Func E U K M)} {fuel fuel' : Nat} (hle : fuel ≤ fuel')
    {c : Cmd E U K M} {σ σ' : Store K M}
    (h : c.exec n fac F fuel σ = some σ') : c.exec n fac F fuel' σ = some σ' := by
  induction fuel using Nat.strong_induction_on generalizing c σ σ' fuel' with
  | _ fuel ihf =>
  induction c generalizing σ σ' with
  | skip | assign | push | load | store | len => simpa only [Cmd.exec] using h
  | letIn t c ih =>
    simp only [Cmd.exec, Option.bind_eq_bind, Option.bind_eq_some_iff, Option.pure_def] at h ⊢
    obtain ⟨v, hv, σ1, h1, h2⟩ := h
    exact ⟨v, hv, σ1, ih h1, h2⟩
  | vecIn c ih =>
    simp only [Cmd.exec, Option.bind_eq_bind, Option.bind_eq_some_iff, Option.pure_def] at h ⊢
    obtain ⟨σ1, h1, h2⟩ := h
    exact ⟨σ1, ih h1, h2⟩
  | seq c d ihc ihd =>
    simp only [Cmd.exec, Option.bind_eq_bind, Option.bind_eq_some_iff] at h ⊢
    obtain ⟨σ1, h1, h2⟩ := h
    exact ⟨σ1, ihc h1, ihd h2⟩
  | ite b c d ihc ihd =>
    simp only [Cmd.exec, Option.bind_eq_bind, Option.bind_eq_some_iff] at h ⊢
    obtain ⟨v, hv, h⟩ := h
    refine ⟨v, hv, ?_⟩
    split at h
    · exact ihc h
    · exact ihd h
    · cases h
  | loop b c _ =>
    cases fuel with
    | zero => simp [Cmd.exec] at h
    | succ k =>
      obtain ⟨k', rfl⟩ : ∃ k', fuel' = k' + 1 := ⟨fuel' - 1, by omega⟩
      simp only [Cmd.exec, Option.bind_eq_bind, Option.bind_eq_some_iff] at h ⊢
      obtain ⟨v, hv, h⟩ := h
      refine ⟨v, hv, ?_⟩
      split at h
      · simp only [Option.bind_eq_some_iff] at h ⊢
        obtain ⟨σ1, h1, h2⟩ := h
        exact ⟨σ1, ihf k (by omega) (by omega) h1, ihf k (by omega) (by omega) h2⟩
      · exact h
      · cases h
  | call x f args vecs =>
    cases fuel with
    | zero => simp [Cmd.exec] at h
    | succ k =>
      obtain ⟨k', rfl⟩ : ∃ k', fuel' = k' + 1 := ⟨fuel' - 1, by omega⟩
      simp only [Cmd.exec, Option.bind_eq_bind, Option.bind_eq_some_iff] at h ⊢
      obtain ⟨fn, hf, vs, hvs, ps, hps, σ1, h1, h2⟩ := h
      exact ⟨fn, hf, vs, hvs, ps, hps, σ1, ihf k (by omega) (by omega) h1, h2⟩
/-- The same without bounds: a program ends on the rescaled store exactly when it ends on the original one, with the rescaled result. -/
theorem C21_ends_partial {ss : List Storage} {n : Nat} {dimOf : U → DimVal E} (hdim : ∀ u, (dimOf u).length = n ∧ (dimOf u).Canonical)
    {F : List (Func E U)} (hF : FuncsCheck ss n dimOf (FaithfulCall n) F)
    {Γ Δ : List (Ty E)} (hΓ : ∀ t ∈ Γ, t.WF n) {c : Cmd E U} (h : CmdChecks ss n dimOf (FaithfulCall n) F Γ Δ c)
    (fac : U → ℝ) {s : List ℝ} (hs : ∀ x ∈ s, 0 < x) {σ : Store} (hσ : σ.HasTys Γ Δ) (τ : Store) :
    (∃ fuel, c.exec n (fun u => fac u * DimVal.scale s (dimOf u)) F fuel (σ.rescale s Γ Δ) = some τ) ↔
      ∃ σ', (∃ fuel, c.exec n fac F fuel σ = some σ') ∧ τ = σ'.rescale s Γ Δ := by
  constructor
  · rintro ⟨fuel, hf⟩
    rw [(C21_programs_partial hdim hF hΓ h fac hs fuel hσ).1] at hf
    obtain ⟨σ', h1, h2⟩ := Option.map_eq_some_iff.1 hf
    exact ⟨σ', ⟨fuel, h1⟩, h2.symm⟩
  · rintro ⟨σ', ⟨fuel, h1⟩, rfl⟩
    exact ⟨fuel, by rw [(C21_programs_partial hdim hF hΓ h fac hs fuel hσ).1, h1]; rfl⟩

/-- The dimensions of two units, a metre and a second, in a system with two base dimensions. -/
def twoUnits : Bool → DimVal Int
  | true => [1, 0]
  | false => [0, 1]

/-- A quotient of quantities of the same type, by the generated `Div`. -/
def quotient (d : DimVal Int) (l r : Tm Int Bool) : Tm Int Bool := .op ⟨.div, qG, qG⟩ ⟨2, d, d, d, .f64, .f64, .f64⟩ l r

/-- `metre / q` for a time `q` -/
def unitDivQuantity : Tm Int Bool := .call .unitDiv [.unit [1, 0], .quantity .f64 [0, 1]] (.cons (.unit true) (.cons (.var 0) .nil))
/-- `metre.new(1.0) / q` for a time `q` -/
def newDivQuantity : Tm Int Bool :=
  .op ⟨.div, qG, qG⟩ ⟨2, [], [1, 0], [0, 1], .f64, .f64, .f64⟩
    (.call .unitNew [.unit [1, 0], .bare .f64] (.cons (.unit true) (.cons (.num .f64 [1]) .nil))) (.var 0)

/-- The property is false of the whole checked API: dividing a unit by a quantity. `(metre / q) / (metre.new(1.0) / q)` is a dimensionless
number that should be one in any base units; for `q` one second it is 1 with metre and second as base units, and 1/4 with the
half-metre as base unit. -/
theorem C21_unit_div_quantity_refuted :
    let e := quotient [1, -1] unitDivQuantity newDivQuantity
    Checks [.f64] 2 twoUnits (CheckedCall 2) [.quantity .f64 [0, 1]] (.inl (e, .quantity .f64 [0, 0])) ∧
    e.eval 2 (fun _ => 1) [.quantity [1]] = some (.quantity [1]) ∧
    e.eval 2 (fun u => 1 * DimVal.scale [2, 1] (twoUnits u)) (rescaleAll [2, 1] [.quantity .f64 ([0, 1] : DimVal Int)] [.quantity [1]]) =
      some (.quantity [1 / 4]) := by
  refine ⟨?_, ?_, ?_⟩
  · refine .op (lt := ⟨.value, .quantity .f64 [1, -1]⟩) (rt := ⟨.value, .quantity .f64 [1, -1]⟩) (out := .value (.quantity .f64 [0, 0]))
      (by decide) rfl ?_ ?_ ⟨rfl, rfl, rfl, rfl, .f64, rfl, _, _, rfl, rfl, rfl⟩ rfl
    · exact .call trivial rfl (.cons .unit (.cons (.var rfl) .nil))
    · refine .op (lt := ⟨.value, .quantity .f64 [1, 0]⟩) (rt := ⟨.value, .quantity .f64 [0, 1]⟩) (out := .value (.quantity .f64 [1, -1]))
        (by decide) rfl ?_ (.var rfl) ⟨rfl, rfl, rfl, rfl, .f64, rfl, _, _, rfl, rfl, rfl⟩ rfl
      exact .call trivial rfl (.cons .unit (.cons (.num rfl) .nil))
  · refine (rfl : _ = (some (Val.quantity [(1 / 1) / ((1 * 1) / 1)]) : Option (Val ℝ ℝ))).trans ?_
    norm_num
  · have h1 : DimVal.scale [2, 1] ([1, 0] : DimVal Int) = 2 := by norm_num [DimVal.scale, DimVal.vec, val]
    have h2 : DimVal.scale [2, 1] ([0, 1] : DimVal Int) = 1 := by norm_num [DimVal.scale, DimVal.vec, val]
    refine (rfl : _ = some (Val.quantity [((1 * DimVal.scale [2, 1] ([0, 1] : DimVal Int)) / (1 * DimVal.scale [2, 1] ([1, 0] : DimVal Int))) /
      ((1 * (1 * DimVal.scale [2, 1] ([1, 0] : DimVal Int))) / (1 * DimVal.scale [2, 1] ([0, 1] : DimVal Int)))])).trans ?_
    rw [h1, h2]; norm_num

/-- The property is false of the whole checked API: dividing a number by a unit. `(1.0 / metre) / metre.new(1.0)` passes for a
dimensionless number; it is 1 with the metre as base unit and 1/4 with the half-metre. -/
theorem C21_number_div_unit_refuted :
    let e := quotient [1, 0] (.call .unitDiv [.bare .f64, .unit [1, 0]] (.cons (.num .f64 [1]) (.cons (.unit true) .nil)))
      (.call .unitNew [.unit [1, 0], .bare .f64] (.cons (.unit true) (.cons (.num .f64 [1]) .nil)))
    Checks [.f64] 2 twoUnits (CheckedCall 2) [] (.inl (e, .quantity .f64 [0, 0])) ∧
    e.eval 2 (fun _ => 1) [] = some (.quantity [1]) ∧
    e.eval 2 (fun u => 1 * DimVal.scale [2, 1] (twoUnits u)) [] = some (.quantity [1 / 4]) := by
  refine ⟨?_, ?_, ?_⟩
  · refine .op (lt := ⟨.value, .quantity .f64 [1, 0]⟩) (rt := ⟨.value, .quantity .f64 [1, 0]⟩) (out := .value (.quantity .f64 [0, 0]))
      (by decide) rfl ?_ ?_ ⟨rfl, rfl, rfl, rfl, .f64, rfl, _, _, rfl, rfl, rfl⟩ rfl
    · exact .call trivial rfl (.cons (.num rfl) (.cons .unit .nil))
    · exact .call trivial rfl (.cons .unit (.cons (.num rfl) .nil))
  · refine (rfl : _ = (some (Val.quantity [(1 / 1) / (1 * 1)]) : Option (Val ℝ ℝ))).trans ?_
    norm_num
  · have h1 : DimVal.scale [2, 1] ([1, 0] : DimVal Int) = 2 := by norm_num [DimVal.scale, DimVal.vec, val]
    refine (rfl : _ = some (Val.quantity [(1 / (1 * DimVal.scale [2, 1] ([1, 0] : DimVal Int))) /
      (1 * (1 * DimVal.scale [2, 1] ([1, 0] : DimVal Int)))])).trans ?_
    rw [h1]; norm_num

/-- Reading out in a unit of another dimension, which the code accepts (see C24), also depends on the base units: one second read out in
metres is 1, and 1/2 with the half-metre as base unit. -/
theorem C21_wrong_read_out_refuted :
    let e : Tm Int Bool := .call .valueIn [.quantity .f64 [0, 1], .unit [1, 0]] (.cons (.var 0) (.cons (.unit true) .nil))
    Checks [.f64] 2 twoUnits (fun _ _ => True) [.quantity .f64 [0, 1]] (.inl (e, .bare .f64)) ∧
    e.eval 2 (fun _ => 1) [.quantity [1]] = some (.bare [1]) ∧
    e.eval 2 (fun u => 1 * DimVal.scale [2, 1] (twoUnits u)) (rescaleAll [2, 1] [.quantity .f64 ([0, 1] : DimVal Int)] [.quantity [1]]) =
      some (.bare [1 / 2]) := by
  refine ⟨.call trivial rfl (.cons (.var rfl) (.cons .unit .nil)), ?_, ?_⟩
  · refine (rfl : _ = (some (Val.bare [1 / 1]) : Option (Val ℝ ℝ))).trans ?_
    norm_num
  · have h1 : DimVal.scale [2, 1] ([1, 0] : DimVal Int) = 2 := by norm_num [DimVal.scale, DimVal.vec, val]
    have h2 : DimVal.scale [2, 1] ([0, 1] : DimVal Int) = 1 := by norm_num [DimVal.scale, DimVal.vec, val]
    refine (rfl : _ = some (Val.bare [(1 * DimVal.scale [2, 1] ([0, 1] : DimVal Int)) / (1 * DimVal.scale [2, 1] ([1, 0] : DimVal Int))])).trans ?_
    rw [h1, h2]; norm_num

/-- Non-vacuity: a program of the faithful API, `while d < metre.new(10.0) { d += v * (second * 1.0) }` with `d` a length and `v` a speed. -/
example : CmdChecks (K := ℝ) (M := ℝ) [.f64] 2 twoUnits (FaithfulCall 2) [] [.quantity .f64 [1, 0], .quantity .f64 [1, -1]] []
    (.loop (.plain .bool (fun | [.ordering o] => some (.bool (o == some .lt)) | _ => none)
        (.cons (.op ⟨.partialOrd, qG, qG⟩ ⟨2, [1, 0], [], [], .f64, .f64, .f64⟩ (.var 0)
          (.call .unitNew [.unit [1, 0], .bare .f64] (.cons (.unit true) (.cons (.num .f64 [10]) .nil)))) .nil))
      (.assign 0 (.op ⟨.addAssign, qG, qG⟩ ⟨2, [1, 0], [], [], .f64, .f64, .f64⟩ (.var 0)
        (.op ⟨.mul, qG, qG⟩ ⟨2, [], [1, -1], [0, 1], .f64, .f64, .f64⟩ (.var 1)
          (.call .unitMul [.unit [0, 1], .bare .f64] (.cons (.unit false) (.cons (.num .f64 [1]) .nil))))))) := by
  refine .loop (.plain (tys := [.ordering]) rfl (by simp [Ty.isPlain]) (.cons ?_ .nil) ?_) (.assign (t := .quantity .f64 [1, 0]) rfl ?_)
  · refine .op (lt := ⟨.value, .quantity .f64 [1, 0]⟩) (rt := ⟨.value, .quantity .f64 [1, 0]⟩) (out := .ordering)
      (by decide) rfl (.var rfl) ?_ ⟨rfl, rfl, rfl, rfl, .f64, rfl, rfl⟩ rfl
    exact .call ⟨trivial, by simp, trivial⟩ rfl (.cons .unit (.cons (.num rfl) .nil))
  · intro vs v h hv
    obtain ⟨w, rfl, hw⟩ := args1.1 h
    cases w <;> simp only [Val.HasTy] at hw
    cases hv; trivial
  · refine .op (lt := ⟨.value, .quantity .f64 [1, 0]⟩) (rt := ⟨.value, .quantity .f64 [1, 0]⟩) (out := .updated)
      (by decide) rfl (.var rfl) ?_ ⟨rfl, rfl, rfl, rfl, .f64, rfl, rfl⟩ rfl
    refine .op (lt := ⟨.value, .quantity .f64 [1, -1]⟩) (rt := ⟨.value, .quantity .f64 [0, 1]⟩) (out := .value (.quantity .f64 [1, 0]))
      (by decide) rfl (.var rfl) ?_ ⟨rfl, rfl, rfl, rfl, .f64, rfl, _, _, rfl, rfl, rfl⟩ rfl
    exact .call ⟨trivial, by simp, trivial⟩ rfl (.cons .unit (.cons (.num rfl) .nil))

/-- `|[x]| f x` for a plain function of one number, `none` for other arguments -/
noncomputable def onNumber (f : ℝ → Val ℝ ℝ) : List (Val ℝ ℝ) → Option (Val ℝ ℝ)
  | [.bare [x]] => some (f x)
  | _ => none

/-- `acc = sum(i + 1.0, acc + x, xs);` -/
noncomputable def sumCall : Cmd Int Bool :=
  .call 3 0 (.cons (.plain (.bare .f64) (onNumber fun i => .bare [i + 1]) (.cons (.var 2) .nil))
    (.cons (.op ⟨.add, qG, qG⟩ ⟨2, [1, 0], [], [], .f64, .f64, .f64⟩ (.var 3) (.var 0)) .nil)) [0]

/-- Non-vacuity, a recursive function on a vector of lengths:
`fn sum(i: f64, acc: Length, xs: &mut Vec<Length>) -> Length { let mut n = 0.0; n = xs.len() as f64; if i < n { let mut x = acc; x = xs[i as usize];
acc = sum(i + 1.0, acc + x, xs); } acc }`. -/
noncomputable def sumFn : Func Int Bool where
  params := [.bare .f64, .quantity .f64 [1, 0]]
  vecs := [.quantity .f64 [1, 0]]
  ret := .quantity .f64 [1, 0]
  body := .letIn (.num .f64 [0]) (.seq (.len 0 0)
    (.ite (.plain .bool (fun | [.bare [i], .bare [n]] => some (.bool (@decide (i < n) (Classical.dec _))) | _ => none) (.cons (.var 1) (.cons (.var 0) .nil)))
      (.letIn (.var 2) (.seq (.load 0 0 (fun | [.bare [i]] => some ⌊i⌋₊ | _ => none) (.cons (.var 2) .nil))
        sumCall))
      .skip))
  result := .var 1

theorem sumFn_checks : FuncsCheck [.f64] 2 twoUnits (FaithfulCall 2) [sumFn] := by
  intro f hf
  obtain rfl := List.mem_singleton.1 hf
  refine ⟨?_, ?_, .var rfl⟩
  · intro t ht d hd
    simp only [sumFn, List.mem_cons, List.not_mem_nil, or_false] at ht
    rcases ht with rfl | rfl <;> (injection hd with hd; subst hd; exact ⟨rfl, fun _ _ => trivial⟩)
  · refine .letIn (t := .bare .f64) (.num rfl) (.seq (.len rfl rfl) (.ite ?_ (.letIn (t := .quantity .f64 [1, 0]) (.var rfl) (.seq ?_ ?_)) .skip))
    · refine .plain (tys := [.bare .f64, .bare .f64]) rfl (by simp [Ty.isPlain]) (.cons (.var rfl) (.cons (.var rfl) .nil)) ?_
      intro vs v _ hv
      split at hv
      · cases hv; trivial
      · cases hv
    · exact .load (t := .quantity .f64 [1, 0]) (tys := [.bare .f64]) rfl rfl (by simp [Ty.isPlain]) (.cons (.var rfl) .nil)
    · refine .call (fn := sumFn) rfl rfl (.cons ?_ (.cons ?_ .nil)) (by simp) (.cons rfl .nil)
      · refine .plain (tys := [.bare .f64]) rfl (by simp [Ty.isPlain]) (.cons (.var rfl) .nil) ?_
        intro vs v _ hv
        unfold onNumber at hv
        split at hv
        · cases hv; rfl
        · cases hv
      · exact .op (lt := ⟨.value, .quantity .f64 [1, 0]⟩) (rt := ⟨.value, .quantity .f64 [1, 0]⟩) (out := .value (.quantity .f64 [1, 0]))
          (by decide) rfl (.var rfl) (.var rfl) ⟨rfl, rfl, rfl, rfl, .f64, rfl, _, _, rfl, rfl, rfl⟩ rfl

theorem call_run {n : Nat} {fac : U → ℝ} {F : List (Func E U)} {fuel x f : Nat} {args : Tms E U} {vecs : List Nat} {σ σ' : Store} {fn : Func E U}
    {vals : List (Val ℝ ℝ)} {passed : List (List (Val ℝ ℝ))} {v : Val ℝ ℝ} (hf : F[f]? = some fn) (ha : args.eval n fac σ.vars = some vals)
    (hp : vecs.mapM (σ.vecs[·]?) = some passed) (hb : fn.body.exec n fac F fuel ⟨vals, passed⟩ = some σ')
    (hv : fn.result.eval n fac σ'.vars = some v) : (Cmd.call x f args vecs).exec n fac F (fuel + 1) σ =
      some ⟨σ.vars.set x v, (vecs.zip σ'.vecs).foldl (fun vs p => vs.set p.1 p.2) σ.vecs⟩ := by
  simp only [Cmd.exec, hf, ha, hp, hb, hv, Option.bind_eq_bind, Option.bind_some, Option.pure_def]

/-- At the end of the vector the function returns `acc`. -/
theorem sumFn_end {fuel : Nat} {i x : ℝ} {l : List (Val ℝ ℝ)} (h : (l.length : ℝ) ≤ i) :
    sumFn.body.exec 2 (fun _ => 1) [sumFn] fuel ⟨[.bare [i], .quantity [x]], [l]⟩ = some ⟨[.bare [i], .quantity [x]], [l]⟩ := by
  simp only [sumFn, Cmd.exec, Tm.eval, Tms.eval, Option.bind_eq_bind, Option.bind_some, List.getElem?_cons_zero, List.getElem?_cons_succ,
    Option.pure_def, List.set_cons_zero, List.tail_cons, decide_eq_false (not_lt.2 h)]

/-- Before the end it adds the element and goes on. -/
theorem sumFn_step {fuel i : Nat} {x y : ℝ} {l : List (Val ℝ ℝ)} (h : l[i]? = some (.quantity [y])) {j w : Val ℝ ℝ}
    (hr : sumFn.body.exec 2 (fun _ => 1) [sumFn] fuel ⟨[.bare [(i : ℝ) + 1], .quantity [x + y]], [l]⟩ = some ⟨[j, w], [l]⟩) :
    sumFn.body.exec 2 (fun _ => 1) [sumFn] (fuel + 1) ⟨[.bare [(i : ℝ)], .quantity [x]], [l]⟩ = some ⟨[.bare [(i : ℝ)], w], [l]⟩ := by
  have hlt : (i : ℝ) < (l.length : ℝ) := by
    exact_mod_cast (List.getElem?_eq_some_iff.1 h).1
  have hcall : sumCall.exec 2 (fun _ => 1) [sumFn] (fuel + 1) ⟨[.quantity [y], .bare [(l.length : ℝ)], .bare [(i : ℝ)], .quantity [x]], [l]⟩ =
      some ⟨[.quantity [y], .bare [(l.length : ℝ)], .bare [(i : ℝ)], w], [l]⟩ := by
    refine call_run (fn := sumFn) (vals := [.bare [(i : ℝ) + 1], .quantity [x + y]]) (passed := [l]) rfl ?_ rfl hr rfl
    simp only [Tms.eval, Tm.eval]; rfl
  simp only [sumFn, Cmd.exec, Tm.eval, Tms.eval, Option.bind_eq_bind, Option.bind_some, List.getElem?_cons_zero, List.getElem?_cons_succ,
    Option.pure_def, List.set_cons_zero, decide_eq_true hlt, Nat.floor_natCast, h]
  simp only [sumFn] at hcall
  simp only [hcall, Option.bind_some, List.tail_cons]

/-- Non-vacuity: `sum(0.0, 0 m, [3 m, 4 m])`, run with three nested calls, is 7 m and leaves the vector alone. -/
theorem sumFn_run : (Cmd.call 0 0 (.cons (.num .f64 [0]) (.cons (.var 0) .nil)) [0] : Cmd Int Bool).exec 2 (fun _ => 1) [sumFn] 3
    ⟨[.quantity [0]], [[.quantity [3], .quantity [4]]]⟩ = some ⟨[.quantity [7]], [[.quantity [3], .quantity [4]]]⟩ := by
  have h0 : sumFn.body.exec 2 (fun _ => 1) [sumFn] 0 ⟨[.bare [((1 : Nat) : ℝ) + 1], .quantity [0 + 3 + 4]], [[.quantity [3], .quantity [4]]]⟩ = _ :=
    sumFn_end (by norm_num)
  have h1 := sumFn_step (i := 1) rfl h0
  have h2 : sumFn.body.exec 2 (fun _ => 1) [sumFn] 2 ⟨[.bare [((0 : Nat) : ℝ)], .quantity [0]], [[.quantity [3], .quantity [4]]]⟩ =
      some ⟨[.bare [((0 : Nat) : ℝ)], .quantity [0 + 3 + 4]], [[.quantity [3], .quantity [4]]]⟩ :=
    sumFn_step (i := 0) rfl (by simpa using h1)
  refine (call_run (fn := sumFn) (vals := [.bare [0], .quantity [0]]) (passed := [[.quantity [3], .quantity [4]]]) rfl rfl rfl
    (by simpa using h2) rfl).trans ?_
  norm_num

/-- Non-vacuity: the dimensions of the two units and the types of the variables are of the unit system; the scales are positive. -/
example : (∀ u, (twoUnits u).length = 2 ∧ (twoUnits u).Canonical) ∧
    (∀ t ∈ [Ty.quantity .f64 ([1, 0] : DimVal Int), .quantity .f64 [1, -1]], t.WF 2) ∧ (∀ x ∈ [(2 : ℝ), 60], 0 < x) ∧
    DimVal.scale [2, 60] ([1, -1] : DimVal Int) = 1 / 30 := by
  refine ⟨fun u => by cases u <;> exact ⟨rfl, fun _ _ => trivial⟩, ?_, by simp, ?_⟩
  · intro t ht d hd
    simp only [List.mem_cons, List.not_mem_nil, or_false] at ht
    rcases ht with rfl | rfl <;> (injection hd with hd; subst hd; exact ⟨rfl, fun _ _ => trivial⟩)
  · norm_num [DimVal.scale, DimVal.vec, val]

end Diman
