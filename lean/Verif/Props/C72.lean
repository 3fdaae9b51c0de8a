import Verif.Spec.Panic
import Verif.Props.C21
import Verif.Model.SoftFloat
/-!
# C72 — programs panic only where the user can see it
A type-checked program (any generated operator and function, also the unchecked ones) ends with values of the expected types, needs more
iterations or calls than allowed, or panics at one of the places named in `Spec/Panic.lean`.
-/
set_option linter.unusedSectionVars false
namespace Diman
open LawfulExponent
variable {E U K M : Type} [Exponent E] [LawfulExponent E] [FieldOps E] [LawfulFieldOps E] [DecidableEq E] [Prims K M] [NatCast K] [AssertingClamp K M]

theorem into0_raw {v : Val K M} {r : Raw K} : v.into0 = some r ↔ v.raw? = some r := by cases v <;> simp [Val.into0, Val.raw?]

/-- A well-typed `clamp` gives no result only when the bounds are not in order. -/
theorem clamp_none {n : Nat} {tys : List (Ty E)} {t : Ty E} (h : (Fn.clamp : Fn E).sig n tys = some t) {args : List (Val K M)}
    (ha : ArgsHaveTy args tys) (hn : (Fn.clamp : Fn E).run n tys args = none) :
      ∃ s d t1 t2 x lo hi a b, tys = [.quantity s d, t1, t2] ∧ args = [x, lo, hi] ∧ lo.raw? = some [a] ∧ hi.raw? = some [b] ∧
        (Prims.lt M s.base a b || Prims.eq M s.base a b) = false := by
  have hrun : (Fn.clamp : Fn E).run n tys args = (Fn.clamp : Fn E).body ((storageOf tys).getD .f64) args := by simp [Fn.run, h]
  rw [hrun] at hn; clear hrun
  simp only [Fn.sig] at h
  split at h <;> [skip; cases h]
  split at h <;> [skip; cases h]
  rename_i s d t1 t2 hok
  simp only [Bool.and_eq_true, decide_eq_true_eq] at hok
  obtain ⟨⟨hf, hi1⟩, rfl⟩ := hok
  obtain ⟨v, lo, hi, rfl, hv, hlo, hhi⟩ := args3.1 ha
  obtain ⟨r, rfl, hr⟩ := hasTy_quantity.1 hv
  obtain ⟨x, rfl⟩ := rawLen_float hf hr
  obtain ⟨ra, ea, la⟩ := into0_of hi1 hlo
  obtain ⟨rb, eb, lb⟩ := into0_of hi1 hhi
  obtain ⟨a, rfl⟩ := rawLen_float hf la
  obtain ⟨b, rfl⟩ := rawLen_float hf lb
  simp only [Fn.body, ea, eb, Option.map_eq_none_iff] at hn
  exact ⟨s, d, _, _, _, _, _, a, b, rfl, rfl, into0_raw.1 ea, into0_raw.1 eb, (AssertingClamp.clamp_none _ x a b).1 hn⟩

/-- Result of an expression or argument list: a value of the type, or a panic. -/
def Progress (n : Nat) (fac : U → M) (ρ : List (Val K M)) : Sum (Tm E U K M × Ty E) (Tms E U K M × List (Ty E)) → Prop
  | .inl (e, t) => (∃ v, e.eval n fac ρ = some v ∧ v.HasTy t) ∨ (e.eval n fac ρ = none ∧ TmPanics n fac ρ (.inl e))
  | .inr (es, ts) => (∃ vs, es.eval n fac ρ = some vs ∧ ArgsHaveTy vs ts) ∨ (es.eval n fac ρ = none ∧ TmPanics n fac ρ (.inr es))

theorem checks_progress {ss : List Storage} {n : Nat} {dimOf : U → DimVal E} {ok : Fn E → List (Ty E) → Prop}
    {Γ : List (Ty E)} {fac : U → M} {ρ : List (Val K M)} (hρ : ArgsHaveTy ρ Γ) {j} (h : Checks ss n dimOf ok Γ j) : Progress n fac ρ j := by
  induction h with
  | @var x t hx =>
    obtain ⟨v, hv, hty⟩ := forall₂_lookup hρ hx
    exact .inl ⟨v, by simpa [Tm.eval] using hv, hty⟩
  | num hr => exact .inl ⟨.bare _, by simp [Tm.eval], hr⟩
  | @unit u => exact .inl ⟨.unit (fac u), by simp only [Tm.eval], trivial⟩
  | @op o i l r lt rt out res ho hn _ _ hty hres ihl ihr =>
    subst hn
    have hres' : res = out.ty lt.ty := by rw [hres]; cases out <;> rfl
    subst hres'
    rcases ihl with ⟨a, ha, ta⟩ | ⟨ha, pa⟩
    · rcases ihr with ⟨b, hb, tb⟩ | ⟨hb, pb⟩
      · obtain ⟨v, h1, h2⟩ := op_sound ho hty ta tb
        exact .inl ⟨v, by simp only [Tm.eval, ha, hb]; exact h1, h2⟩
      · exact .inr ⟨by simp [Tm.eval, ha, hb], .opRight ha pb⟩
    · exact .inr ⟨by simp [Tm.eval, ha], .opLeft pa⟩
  | @call f tys args t hok hsig _ ih =>
    rcases ih with ⟨vs, hvs, tvs⟩ | ⟨hvs, pvs⟩
    · rcases fn_sound hsig tvs with ⟨v, h1, h2⟩ | ⟨rfl, h1⟩
      · exact .inl ⟨v, by simp only [Tm.eval, hvs]; exact h1, h2⟩
      · refine .inr ⟨by simp only [Tm.eval, hvs]; exact h1, ?_⟩
        obtain ⟨s, d, t1, t2, x, lo, hi, a, b, rfl, rfl, e1, e2, hlt⟩ := clamp_none hsig tvs h1
        exact .clamp hvs e1 e2 hlt
    · exact .inr ⟨by simp [Tm.eval, hvs], .callArgs pvs⟩
  | @plain t g args tys hp hps _ hg ih =>
    rcases ih with ⟨vs, hvs, tvs⟩ | ⟨hvs, pvs⟩
    · cases hv : g vs with
      | some v => exact .inl ⟨v, by simp [Tm.eval, hvs, hv], hg vs v tvs hv⟩
      | none => exact .inr ⟨by simp [Tm.eval, hvs, hv], .plain hvs hv⟩
    · exact .inr ⟨by simp [Tm.eval, hvs], .plainArgs pvs⟩
  | @ite c a b t _ _ _ ihc iha ihb =>
    rcases ihc with ⟨v, hv, tv⟩ | ⟨hv, pv⟩
    · cases v <;> simp only [Val.HasTy] at tv
      rename_i w
      cases w
      · rcases ihb with ⟨x, hx, tx⟩ | ⟨hx, px⟩
        · exact .inl ⟨x, by simp [Tm.eval, hv, hx], tx⟩
        · exact .inr ⟨by simp [Tm.eval, hv, hx], .iteFalse hv px⟩
      · rcases iha with ⟨x, hx, tx⟩ | ⟨hx, px⟩
        · exact .inl ⟨x, by simp [Tm.eval, hv, hx], tx⟩
        · exact .inr ⟨by simp [Tm.eval, hv, hx], .iteTrue hv px⟩
    · exact .inr ⟨by simp [Tm.eval, hv], .iteCond pv⟩
  | nil => exact .inl ⟨[], rfl, .nil⟩
  | @cons a as t ts _ _ iha ihas =>
    rcases iha with ⟨v, hv, tv⟩ | ⟨hv, pv⟩
    · rcases ihas with ⟨vs, hvs, tvs⟩ | ⟨hvs, pvs⟩
      · exact .inl ⟨v :: vs, by simp [Tms.eval, hv, hvs], .cons tv tvs⟩
      · exact .inr ⟨by simp [Tms.eval, hv, hvs], .tail hv pvs⟩
    · exact .inr ⟨by simp [Tms.eval, hv], .head pv⟩

/-- Expressions: a type-checked expression gives a value of its type, or panics at a `clamp` or a function of plain values. -/
theorem C72_terms {ss : List Storage} {n : Nat} {dimOf : U → DimVal E} {ok : Fn E → List (Ty E) → Prop} {Γ : List (Ty E)} {e : Tm E U K M} {t : Ty E}
    (h : Checks ss n dimOf ok Γ (.inl (e, t))) (fac : U → M) {ρ : List (Val K M)} (hρ : ArgsHaveTy ρ Γ) :
    (∃ v, e.eval n fac ρ = some v ∧ v.HasTy t) ∨ (e.eval n fac ρ = none ∧ TmPanics n fac ρ (.inl e)) := checks_progress hρ h

omit [AssertingClamp K M] in
theorem passed_some {Δ : List (Ty E)} {ls : List (List (Val K M))}
    (hls : List.Forall₂ (fun (l : List (Val K M)) t => ∀ v ∈ l, v.HasTy t) ls Δ) {vecs : List Nat} {ts : List (Ty E)}
    (h : List.Forall₂ (fun a t => Δ[a]? = some t) vecs ts) :
    ∃ ps, vecs.mapM (ls[·]?) = some ps ∧ List.Forall₂ (fun (l : List (Val K M)) t => ∀ v ∈ l, v.HasTy t) ps ts := by
  induction h with
  | nil => exact ⟨[], rfl, .nil⟩
  | @cons a t vecs ts ha _ ih =>
    obtain ⟨ps, e1, h⟩ := ih
    obtain ⟨l, hl, hv⟩ := forall₂_lookup hls ha
    exact ⟨l :: ps, by simp [List.mapM_cons, hl, e1], .cons hv h⟩

omit [AssertingClamp K M] in
theorem back_tys {Δ : List (Ty E)} {vecs : List Nat} {ts : List (Ty E)}
    (h : List.Forall₂ (fun a t => Δ[a]? = some t) vecs ts) {ps : List (List (Val K M))}
    (hp : List.Forall₂ (fun (l : List (Val K M)) t => ∀ v ∈ l, v.HasTy t) ps ts) {ls : List (List (Val K M))}
    (hls : List.Forall₂ (fun (l : List (Val K M)) t => ∀ v ∈ l, v.HasTy t) ls Δ) :
    List.Forall₂ (fun (l : List (Val K M)) t => ∀ v ∈ l, v.HasTy t) ((vecs.zip ps).foldl (fun vs p => vs.set p.1 p.2) ls) Δ := by
  induction h generalizing ps ls with
  | nil => simpa using hls
  | @cons a t vecs ts ha _ ih =>
    cases hp with
    | @cons p _ ps _ hp hps => exact ih hps (forall₂_setAt hls ha hp)

/-- Whole programs: a type-checked program ends with variables and vectors of their types, or stops for a reason named in `Stops`. -/
theorem C72_programs {ss : List Storage} {n : Nat} {dimOf : U → DimVal E} {ok : Fn E → List (Ty E) → Prop} {F : List (Func E U K M)}
    (hF : FuncsCheck ss n dimOf ok F) {Γ Δ : List (Ty E)} {c : Cmd E U K M} (h : CmdChecks ss n dimOf ok F Γ Δ c) (fac : U → M) (fuel : Nat)
    {σ : Store K M} (hσ : σ.HasTys Γ Δ) :
    (∃ σ', c.exec n fac F fuel σ = some σ' ∧ σ'.HasTys Γ Δ) ∨ (c.exec n fac F fuel σ = none ∧ ∃ w, Stops n fac F w fuel c σ) := by
  have branch : ∀ {Γ : List (Ty E)} {b : Tm E U K M} {ρ : List (Val K M)}, ArgsHaveTy ρ Γ → Checks ss n dimOf ok Γ (.inl (b, .bool)) →
      b.eval n fac ρ = some (.bool true) ∨ b.eval n fac ρ = some (.bool false) ∨ (b.eval n fac ρ = none ∧ TmPanics n fac ρ (.inl b)) := by
    intro Γ b ρ hρ hb
    rcases checks_progress (fac := fac) hρ hb with ⟨v, hv, tv⟩ | h
    · cases v <;> simp only [Val.HasTy] at tv
      rename_i w
      cases w
      · exact .inr (.inl hv)
      · exact .inl hv
    · exact .inr (.inr h)
  induction fuel using Nat.strong_induction_on generalizing Γ Δ c σ with
  | _ fuel ihf =>
  induction h generalizing σ with
  | skip => exact .inl ⟨σ, by simp [Cmd.exec], hσ⟩
  | @assign Γ Δ x e t hx he =>
    rcases checks_progress (fac := fac) hσ.1 he with ⟨v, hv, tv⟩ | ⟨hv, pv⟩
    · refine .inl ⟨_, by simp only [Cmd.exec, hv]; rfl, ?_⟩; exact ⟨argsHaveTy_set hσ.1 hx tv, hσ.2⟩
    · exact .inr ⟨by simp [Cmd.exec, hv], _, .assign pv⟩
  | @letIn Γ Δ e t c he _ ih =>
    rcases checks_progress (fac := fac) hσ.1 he with ⟨v, hv, tv⟩ | ⟨hv, pv⟩
    · rcases ih (σ := { σ with vars := v :: σ.vars }) ⟨.cons tv hσ.1, hσ.2⟩ with ⟨σ1, h1, h2, h3⟩ | ⟨h1, w, h2⟩
      · obtain ⟨vars, vecs⟩ := σ1
        cases h2 with
        | cons h2 h2' => refine .inl ⟨_, by simp only [Cmd.exec, hv, Option.bind_eq_bind, Option.bind_some, h1]; rfl, ?_⟩; exact ⟨h2', h3⟩
      · exact .inr ⟨by simp [Cmd.exec, hv, h1], w, .letBody hv h2⟩
    · exact .inr ⟨by simp [Cmd.exec, hv], _, .letValue pv⟩
  | @seq Γ Δ c d _ _ ihc ihd =>
    rcases ihc hσ with ⟨σ1, h1, h2⟩ | ⟨h1, w, h2⟩
    · rcases ihd h2 with ⟨σ2, h3, h4⟩ | ⟨h3, w, h4⟩
      · exact .inl ⟨σ2, by simp [Cmd.exec, h1, h3], h4⟩
      · exact .inr ⟨by simp [Cmd.exec, h1, h3], w, .second h1 h4⟩
    · exact .inr ⟨by simp [Cmd.exec, h1], w, .first h2⟩
  | @ite Γ Δ b c d hb _ _ ihc ihd =>
    rcases branch hσ.1 hb with hv | hv | ⟨hv, pv⟩
    · rcases ihc hσ with ⟨σ1, h1, h2⟩ | ⟨h1, w, h2⟩
      · exact .inl ⟨σ1, by simp [Cmd.exec, hv, h1], h2⟩
      · exact .inr ⟨by simp [Cmd.exec, hv, h1], w, .iteTrue hv h2⟩
    · rcases ihd hσ with ⟨σ1, h1, h2⟩ | ⟨h1, w, h2⟩
      · exact .inl ⟨σ1, by simp [Cmd.exec, hv, h1], h2⟩
      · exact .inr ⟨by simp [Cmd.exec, hv, h1], w, .iteFalse hv h2⟩
    · exact .inr ⟨by simp [Cmd.exec, hv], _, .iteCond pv⟩
  | @loop Γ Δ b c hb hc ihc =>
    cases fuel with
    | zero => exact .inr ⟨by simp [Cmd.exec], _, .loopFuel⟩
    | succ fuel =>
      rcases branch hσ.1 hb with hv | hv | ⟨hv, pv⟩
      · rcases ihf fuel (by omega) hc hσ with ⟨σ1, h1, h2⟩ | ⟨h1, w, h2⟩
        · rcases ihf fuel (by omega) (.loop hb hc) h2 with ⟨σ2, h3, h4⟩ | ⟨h3, w, h4⟩
          · exact .inl ⟨σ2, by simp [Cmd.exec, hv, h1, h3], h4⟩
          · exact .inr ⟨by simp [Cmd.exec, hv, h1, h3], w, .loopNext hv h1 h4⟩
        · exact .inr ⟨by simp [Cmd.exec, hv, h1], w, .loopBody hv h2⟩
      · exact .inl ⟨σ, by simp [Cmd.exec, hv], hσ⟩
      · exact .inr ⟨by simp [Cmd.exec, hv], _, .loopCond pv⟩
  | @vecIn Γ Δ t c _ ih =>
    rcases ih (σ := { σ with vecs := [] :: σ.vecs }) ⟨hσ.1, .cons (by simp) hσ.2⟩ with ⟨σ1, h1, h2, h3⟩ | ⟨h1, w, h2⟩
    · obtain ⟨vars, vecs⟩ := σ1
      cases h3 with
      | cons h3 h3' => refine .inl ⟨_, by simp only [Cmd.exec, Option.bind_eq_bind, Option.bind_some, h1]; rfl, ?_⟩; exact ⟨h2, h3'⟩
    · exact .inr ⟨by simp [Cmd.exec, h1], w, .vecIn h2⟩
  | @push Γ Δ a e t ha he =>
    obtain ⟨l, hl, hlt⟩ := forall₂_lookup hσ.2 ha
    rcases checks_progress (fac := fac) hσ.1 he with ⟨v, hv, tv⟩ | ⟨hv, pv⟩
    · refine .inl ⟨_, by simp only [Cmd.exec, hv, hl, Option.bind_eq_bind, Option.bind_some]; rfl, ?_⟩
      refine ⟨hσ.1, forall₂_setAt hσ.2 ha ?_⟩
      intro w hw
      rcases List.mem_append.1 hw with hw | hw
      · exact hlt w hw
      · rw [List.mem_singleton.1 hw]; exact tv
    · exact .inr ⟨by simp [Cmd.exec, hv], _, .push pv⟩
  | @load Γ Δ x a g args tys t hx ha hp hargs =>
    obtain ⟨l, hl, hlt⟩ := forall₂_lookup hσ.2 ha
    rcases checks_progress (fac := fac) hσ.1 hargs with ⟨vs, hvs, tvs⟩ | ⟨hvs, pvs⟩
    · cases hg : g vs with
      | none => exact .inr ⟨by simp [Cmd.exec, hvs, hg], _, .loadIndex hvs hg⟩
      | some i =>
        cases hi : l[i]? with
        | none => exact .inr ⟨by simp [Cmd.exec, hvs, hg, hl, hi], _, .loadBounds hvs hg hl (List.getElem?_eq_none_iff.1 hi)⟩
        | some v =>
          refine .inl ⟨_, by simp only [Cmd.exec, hvs, hg, hl, hi, Option.bind_eq_bind, Option.bind_some]; rfl, ?_⟩; exact ⟨argsHaveTy_set hσ.1 hx (hlt v (List.mem_of_getElem? hi)), hσ.2⟩
    · exact .inr ⟨by simp [Cmd.exec, hvs], _, .loadArgs pvs⟩
  | @store Γ Δ a g args tys e t ha hp hargs he =>
    obtain ⟨l, hl, hlt⟩ := forall₂_lookup hσ.2 ha
    rcases checks_progress (fac := fac) hσ.1 hargs with ⟨vs, hvs, tvs⟩ | ⟨hvs, pvs⟩
    · cases hg : g vs with
      | none => exact .inr ⟨by simp [Cmd.exec, hvs, hg], _, .storeIndex hvs hg⟩
      | some i =>
        rcases checks_progress (fac := fac) hσ.1 he with ⟨v, hv, tv⟩ | ⟨hv, pv⟩
        · by_cases hi : i < l.length
          · refine .inl ⟨_, by simp only [Cmd.exec, hvs, hg, hv, hl, Option.bind_eq_bind, Option.bind_some, if_pos hi]; rfl, ?_⟩
            refine ⟨hσ.1, forall₂_setAt hσ.2 ha ?_⟩
            intro w hw'
            rcases List.mem_or_eq_of_mem_set hw' with hw' | rfl
            · exact hlt w hw'
            · exact tv
          · exact .inr ⟨by simp [Cmd.exec, hvs, hg, hv, hl, hi], _, .storeBounds hvs hg hv hl (by omega)⟩
        · exact .inr ⟨by simp [Cmd.exec, hvs, hv], _, .storeValue hvs hg pv⟩
    · exact .inr ⟨by simp [Cmd.exec, hvs], _, .storeArgs pvs⟩
  | @len Γ Δ x a t hx ha =>
    obtain ⟨l, hl, -⟩ := forall₂_lookup hσ.2 ha
    refine .inl ⟨_, by simp only [Cmd.exec, hl, Option.bind_eq_bind, Option.bind_some]; rfl, ?_⟩; exact ⟨argsHaveTy_set hσ.1 hx rfl, hσ.2⟩
  | @call Γ Δ x f args vecs fn hf hx hargs hnd hvecs =>
    cases fuel with
    | zero => exact .inr ⟨by simp [Cmd.exec], _, .callFuel⟩
    | succ fuel =>
      obtain ⟨-, hbody, hres⟩ := hF fn (List.mem_of_getElem? hf)
      obtain ⟨ps, p1, p3⟩ := passed_some hσ.2 hvecs
      rcases checks_progress (fac := fac) hσ.1 hargs with ⟨vs, hvs, tvs⟩ | ⟨hvs, pvs⟩
      · rcases ihf fuel (by omega) hbody (σ := ⟨vs, ps⟩) ⟨tvs, p3⟩ with ⟨σ1, h1, h2, h3⟩ | ⟨h1, w, h2⟩
        · rcases checks_progress (fac := fac) h2 hres with ⟨v, hv, tv⟩ | ⟨hv, pv⟩
          · refine .inl ⟨_, by simp only [Cmd.exec, hf, hvs, p1, h1, hv, Option.bind_eq_bind, Option.bind_some]; rfl, ?_⟩; exact ⟨argsHaveTy_set hσ.1 hx tv, back_tys hvecs h3 hσ.2⟩
          · exact .inr ⟨by simp [Cmd.exec, hf, hvs, p1, h1, hv], _, .callResult hf hvs p1 h1 pv⟩
        · exact .inr ⟨by simp [Cmd.exec, hf, hvs, p1, h1], w, .callBody hf hvs p1 h2⟩
      · exact .inr ⟨by simp [Cmd.exec, hf, hvs], _, .callArgs pvs⟩

theorem tmPanics_quiet {n : Nat} {fac : U → M} {ρ : List (Val K M)} {j : Sum (Tm E U K M) (Tms E U K M)} (h : TmPanics n fac ρ j) :
    ¬ (match j with | .inl e => e.Quiet | .inr es => es.Quiet) := by
  induction h with
  | plain _ hg => exact fun h => h.1 _ hg
  | _ => simp_all [Tm.Quiet, Tms.Quiet]

theorem stops_quiet {n : Nat} {fac : U → M} {F : List (Func E U K M)} (hF : ∀ f ∈ F, f.body.Quiet ∧ f.result.Quiet) {w : Stop} {k : Nat} {c : Cmd E U K M}
    {σ : Store K M} (h : Stops n fac F w k c σ) (hq : c.Quiet) : w = .fuel := by
  induction h with
  | loopFuel | callFuel => rfl
  | assign hp | push hp => exact absurd hq (tmPanics_quiet hp)
  | letValue hp | iteCond hp | loopCond hp => exact absurd hq.1 (tmPanics_quiet hp)
  | callArgs hp => exact absurd hq (tmPanics_quiet hp)
  | letBody _ _ ih => exact ih hq.2
  | first _ ih => exact ih hq.1
  | second _ _ ih => exact ih hq.2
  | iteTrue _ _ ih => exact ih hq.2.1
  | iteFalse _ _ ih => exact ih hq.2.2
  | loopBody _ _ ih => exact ih hq.2
  | loopNext _ _ _ ih => exact ih hq
  | vecIn _ ih => exact ih hq
  | callBody hf _ _ _ ih => exact ih (hF _ (List.mem_of_getElem? hf)).1
  | callResult hf _ _ _ hp => exact absurd (hF _ (List.mem_of_getElem? hf)).2 (tmPanics_quiet hp)
  | loadArgs | loadIndex | loadBounds | storeArgs | storeIndex | storeValue | storeBounds => exact absurd hq (by simp [Cmd.Quiet])

/-- A type-checked program without `clamp`, vector indexing and partial functions of its own never panics: with every bound on iterations and
calls it ends with values of the expected types or reaches the bound. -/
theorem C72_quiet {ss : List Storage} {n : Nat} {dimOf : U → DimVal E} {ok : Fn E → List (Ty E) → Prop} {F : List (Func E U K M)}
    (hF : FuncsCheck ss n dimOf ok F) (hFq : ∀ f ∈ F, f.body.Quiet ∧ f.result.Quiet) {Γ Δ : List (Ty E)} {c : Cmd E U K M}
    (h : CmdChecks ss n dimOf ok F Γ Δ c) (hq : c.Quiet) (fac : U → M) (fuel : Nat) {σ : Store K M} (hσ : σ.HasTys Γ Δ) :
    (∃ σ', c.exec n fac F fuel σ = some σ' ∧ σ'.HasTys Γ Δ) ∨ Stops n fac F .fuel fuel c σ := by
  rcases C72_programs hF h fac fuel hσ with h | ⟨-, w, h⟩
  · exact .inl h
  · exact .inr (stops_quiet hFq h hq ▸ h)

/-! ## Panics are panics -/

/-- The rules for panics of expressions are right: an expression that panics has no value. -/
theorem C72_terms_panic {n : Nat} {fac : U → M} {ρ : List (Val K M)} {j : Sum (Tm E U K M) (Tms E U K M)} (h : TmPanics n fac ρ j) :
    match j with
    | .inl e => e.eval n fac ρ = none
    | .inr es => es.eval n fac ρ = none := by
  induction h with
  | @clamp s d t t' args x lo hi a b hvs e1 e2 hlt =>
    simp only [Tm.eval, hvs, Option.bind_eq_bind, Option.bind_some, Fn.run, Fn.body]
    split
    · rfl
    · split
      · rename_i heq
        injection heq with h1 heq
        injection heq with h2 heq
        injection heq with h3 _
        subst h2; subst h3
        rw [into0_raw.2 e1, into0_raw.2 e2]
        simp only [Option.map_eq_none_iff]
        exact (AssertingClamp.clamp_none _ _ a b).2 hlt
      · rfl
  | plain hvs hg => simp [Tm.eval, hvs, hg]
  | opLeft _ ih => simp_all [Tm.eval]
  | opRight ha _ ih => simp_all [Tm.eval]
  | callArgs _ ih => simp_all [Tm.eval]
  | plainArgs _ ih => simp_all [Tm.eval]
  | iteCond _ ih => simp_all [Tm.eval]
  | iteTrue hv _ ih => simp_all [Tm.eval]
  | iteFalse hv _ ih => simp_all [Tm.eval]
  | head _ ih => simp_all [Tms.eval]
  | tail hv _ ih => simp_all [Tms.eval]

/-- The rules for statements are right: a statement that stops gives no result. -/
theorem C72_stops {n : Nat} {fac : U → M} {F : List (Func E U K M)} {w : Stop} {k : Nat} {c : Cmd E U K M} {σ : Store K M} (h : Stops n fac F w k c σ) :
    c.exec n fac F k σ = none := by
  induction h with
  | assign hp | letValue hp | iteCond hp | push hp | loopCond hp | loadArgs hp | storeArgs hp =>
    have := C72_terms_panic hp
    simp only at this
    simp [Cmd.exec, this]
  | callArgs hp =>
    have := C72_terms_panic hp
    simp only at this
    simp [Cmd.exec, this]
  | loopFuel | callFuel => simp [Cmd.exec]
  | letBody hv _ ih => simp [Cmd.exec, hv, ih]
  | first _ ih => simp [Cmd.exec, ih]
  | second h1 _ ih => simp [Cmd.exec, h1, ih]
  | iteTrue hv _ ih | iteFalse hv _ ih => simp [Cmd.exec, hv, ih]
  | loopBody hv _ ih => simp [Cmd.exec, hv, ih]
  | loopNext hv h1 _ ih => simp [Cmd.exec, hv, h1, ih]
  | vecIn _ ih => simp [Cmd.exec, ih]
  | loadIndex hvs hg | storeIndex hvs hg => simp [Cmd.exec, hvs, hg]
  | loadBounds hvs hg hl hi => simp [Cmd.exec, hvs, hg, hl, hi]
  | storeValue hvs hg hp =>
    have := C72_terms_panic hp
    simp only at this
    simp [Cmd.exec, hvs, this]
  | storeBounds hvs hg hv hl hi => simp [Cmd.exec, hvs, hg, hv, hl, hi]
  | callBody hf hvs hps _ ih => simp [Cmd.exec, hf, hvs, hps, ih]
  | callResult hf hvs hps h1 hp =>
    have := C72_terms_panic hp
    simp only at this
    simp [Cmd.exec, hf, hvs, hps, h1, this]

/-- A panic does not go away when more iterations and calls are allowed. -/
theorem stops_mono {n : Nat} {fac : U → M} {F : List (Func E U K M)} {w : Stop} {k : Nat} {c : Cmd E U K M} {σ : Store K M} (h : Stops n fac F w k c σ)
    (hw : w = .panic) {k' : Nat} (hk : k ≤ k') : Stops n fac F .panic k' c σ := by
  induction h generalizing k' with
  | assign hp => exact .assign hp
  | letValue hp => exact .letValue hp
  | iteCond hp => exact .iteCond hp
  | push hp => exact .push hp
  | loadArgs hp => exact .loadArgs hp
  | storeArgs hp => exact .storeArgs hp
  | loopCond hp => obtain ⟨m, rfl⟩ : ∃ m, k' = m + 1 := ⟨k' - 1, by omega⟩; exact .loopCond hp
  | callArgs hp => obtain ⟨m, rfl⟩ : ∃ m, k' = m + 1 := ⟨k' - 1, by omega⟩; exact .callArgs hp
  | loopFuel | callFuel => cases hw
  | letBody hv _ ih => exact .letBody hv (ih hw hk)
  | first _ ih => exact .first (ih hw hk)
  | second h1 _ ih => exact .second (exec_mono hk h1) (ih hw hk)
  | iteTrue hv _ ih => exact .iteTrue hv (ih hw hk)
  | iteFalse hv _ ih => exact .iteFalse hv (ih hw hk)
  | loopBody hv _ ih => obtain ⟨m, rfl⟩ : ∃ m, k' = m + 1 := ⟨k' - 1, by omega⟩; exact .loopBody hv (ih hw (by omega))
  | loopNext hv h1 _ ih =>
    obtain ⟨m, rfl⟩ : ∃ m, k' = m + 1 := ⟨k' - 1, by omega⟩
    exact .loopNext hv (exec_mono (by omega) h1) (ih hw (by omega))
  | vecIn _ ih => exact .vecIn (ih hw hk)
  | loadIndex hvs hg => exact .loadIndex hvs hg
  | storeIndex hvs hg => exact .storeIndex hvs hg
  | loadBounds hvs hg hl hi => exact .loadBounds hvs hg hl hi
  | storeValue hvs hg hp => exact .storeValue hvs hg hp
  | storeBounds hvs hg hv hl hi => exact .storeBounds hvs hg hv hl hi
  | callBody hf hvs hps _ ih =>
    obtain ⟨m, rfl⟩ : ∃ m, k' = m + 1 := ⟨k' - 1, by omega⟩
    exact .callBody hf hvs hps (ih hw (by omega))
  | callResult hf hvs hps h1 hp =>
    obtain ⟨m, rfl⟩ : ∃ m, k' = m + 1 := ⟨k' - 1, by omega⟩
    exact .callResult hf hvs hps (exec_mono (by omega) h1) hp

/-- A program that panics ends for no number of iterations and calls. -/
theorem C72_panic {n : Nat} {fac : U → M} {F : List (Func E U K M)} {k : Nat} {c : Cmd E U K M} {σ : Store K M} (h : Stops n fac F .panic k c σ) (k' : Nat) :
    c.exec n fac F k' σ = none := by
  cases hx : c.exec n fac F k' σ with
  | none => rfl
  | some σ' =>
    have h1 := exec_mono (Nat.le_max_right k k') hx
    rw [C72_stops (stops_mono h rfl (Nat.le_max_left k k'))] at h1
    cases h1

/-! ## The arithmetics -/

/-- Exact numbers. -/
instance [IdealFns] : AssertingClamp ℝ ℝ where
  clamp_none t x a b := by
    have h1 : (Prims.clamp ℝ t x a b : Option ℝ) = if a ≤ b then some (Max.max a (Min.min x b)) else none := rfl
    have h2 : Prims.lt ℝ t a b = decide (a < b) := rfl
    have h3 : Prims.eq ℝ t a b = decide (a = b) := rfl
    rw [h1, h2, h3]
    by_cases h : a ≤ b
    · rcases h.lt_or_eq with h' | h' <;> simp [h, h']
    · have := not_le.1 h
      simp [h, this.le, this.ne']

theorem soft_clamp (P : PlatformFns) : letI := softPrims P; AssertingClamp Fl Magnitude :=
  letI := softPrims P
  ⟨fun t x a b => by
    show Fl.clamp x a b = none ↔ (a.lt b || a.feq b) = false
    unfold Fl.clamp
    cases a.lt b || a.feq b <;> simp⟩

/-- `len() as f64` -/
instance : NatCast Fl := ⟨fun n => f64Fmt.ofInt n⟩

/-- **C72 for `f32` and `f64`**: whatever the platform's functions, rounding, overflow and NaN included, a type-checked program ends with values of the
expected types, or reaches the bound on iterations and calls, or panics at one of the places of `Stops`. -/
theorem C72_float (P : PlatformFns) : letI := softPrims P
    ∀ {ss : List Storage} {n : Nat} {dimOf : U → DimVal E} {ok : Fn E → List (Ty E) → Prop} {F : List (Func E U Fl Magnitude)}
      (_ : FuncsCheck ss n dimOf ok F) {Γ Δ : List (Ty E)} {c : Cmd E U Fl Magnitude} (_ : CmdChecks ss n dimOf ok F Γ Δ c) (fac : U → Magnitude)
      (fuel : Nat) {σ : Store Fl Magnitude} (_ : σ.HasTys Γ Δ),
      (∃ σ', c.exec n fac F fuel σ = some σ' ∧ σ'.HasTys Γ Δ) ∨ (c.exec n fac F fuel σ = none ∧ ∃ w, Stops n fac F w fuel c σ) := by
  let := softPrims P
  have := soft_clamp P
  intro ss n dimOf ok F hF Γ Δ c h fac fuel σ hσ
  exact C72_programs hF h fac fuel hσ

/-! ## Examples -/
section
variable [IdealFns]

/-- `x.clamp(2 m, 1 m)` for a length `x` type-checks and panics. -/
example : Checks (K := ℝ) (M := ℝ) [.f64] 2 twoUnits (fun _ _ => True) [.quantity .f64 [1, 0]]
      (.inl (.call .clamp [.quantity .f64 [1, 0], .quantity .f64 [1, 0], .quantity .f64 [1, 0]]
        (.cons (.var 0) (.cons (.call .unitNew [.unit [1, 0], .bare .f64] (.cons (.unit true) (.cons (.num .f64 [2]) .nil)))
          (.cons (.call .unitNew [.unit [1, 0], .bare .f64] (.cons (.unit true) (.cons (.num .f64 [1]) .nil))) .nil))),
        (.quantity .f64 [1, 0] : Ty Int))) ∧
    TmPanics (K := ℝ) (M := ℝ) 2 (fun _ => 1) [.quantity [5]] (.inl (.call .clamp [.quantity .f64 [1, 0], .quantity .f64 [1, 0], .quantity .f64 [1, 0]]
        (.cons (.var 0) (.cons (.call .unitNew [.unit [1, 0], .bare .f64] (.cons (.unit true) (.cons (.num .f64 [2]) .nil)))
          (.cons (.call .unitNew [.unit [1, 0], .bare .f64] (.cons (.unit true) (.cons (.num .f64 [1]) .nil))) .nil))) : Tm Int Bool)) := by
  refine ⟨.call trivial rfl (.cons (.var rfl) (.cons (.call trivial rfl (.cons .unit (.cons (.num rfl) .nil)))
    (.cons (.call trivial rfl (.cons .unit (.cons (.num rfl) .nil))) .nil))), ?_⟩
  refine .clamp (x := .quantity [5]) (lo := .quantity [2 * 1]) (hi := .quantity [1 * 1]) (a := 2 * 1) (b := 1 * 1) ?_ rfl rfl ?_
  · rfl
  · show (decide ((2 : ℝ) * 1 < 1 * 1) || decide ((2 : ℝ) * 1 = 1 * 1)) = false
    norm_num

/-- A loop that adds a length to itself never panics. -/
example : CmdChecks (K := ℝ) (M := ℝ) [.f64] 2 twoUnits (fun _ _ => True) [] [.quantity .f64 [1, 0]] []
      (.loop (.call .isPositive [.quantity .f64 [1, 0]] (.cons (.var 0) .nil))
        (.assign 0 (.op ⟨.add, qG, qG⟩ ⟨2, [1, 0], [1, 0], [1, 0], .f64, .f64, .f64⟩ (.var 0) (.var 0))) : Cmd Int Bool) ∧
    (.loop (.call .isPositive [.quantity .f64 [1, 0]] (.cons (.var 0) .nil))
        (.assign 0 (.op ⟨.add, qG, qG⟩ ⟨2, [1, 0], [1, 0], [1, 0], .f64, .f64, .f64⟩ (.var 0) (.var 0))) : Cmd Int Bool).Quiet := by
  refine ⟨.loop (.call trivial rfl (.cons (.var rfl) .nil))
    (.assign rfl (.op (lt := ⟨.value, .quantity .f64 [1, 0]⟩) (rt := ⟨.value, .quantity .f64 [1, 0]⟩) (out := .value (.quantity .f64 [1, 0]))
      (by decide) rfl (.var rfl) (.var rfl) ⟨rfl, rfl, rfl, rfl, .f64, rfl, _, _, rfl, rfl, rfl⟩ rfl)), ?_⟩
  simp [Cmd.Quiet, Tm.Quiet, Tms.Quiet]
end

/-- In floating point a NaN bound panics, whatever the other bound is. -/
example (P : PlatformFns) (x b : Fl) : letI := softPrims P
    TmPanics 2 (fun _ : Bool => (⟨1, 0, 1⟩ : Magnitude)) [.quantity [x], .quantity [.nan], .quantity [b]]
      (.inl (.call .clamp [.quantity .f64 [1, 0], .quantity .f64 [1, 0], .quantity .f64 [1, 0]] (.cons (.var 0) (.cons (.var 1) (.cons (.var 2) .nil))) :
        Tm Int Bool Fl Magnitude)) := by
  let := softPrims P
  refine .clamp (x := .quantity [x]) (lo := .quantity [.nan]) (hi := .quantity [b]) (a := .nan) (b := b) rfl rfl rfl ?_
  cases b <;> rfl
end Diman
