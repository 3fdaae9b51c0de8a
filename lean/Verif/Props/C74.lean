import Verif.Proofs.Erase
import Verif.Props.C72
/-!
# C74 — units cost nothing at run time
Forgetting the units of a type-checked program (`Spec/Erase.lean`) leaves a program on plain numbers and glam vectors that computes the same numbers, and panics
and loops exactly when the program with units does. This holds for every arithmetic, so for floats it is an equality of bits.
-/
set_option linter.unusedSectionVars false
namespace Diman
variable {E U K M : Type} [Exponent E] [LawfulExponent E] [FieldOps E] [LawfulFieldOps E] [DecidableEq E] [Prims K M] [NatCast K]

omit [NatCast K] [Prims K M] in
theorem plain_erase {v : Val K M} {t : Ty E} (ht : t.isPlain = true) (h : v.HasTy t) : v.erase.plain = v := by
  cases t <;> simp [Ty.isPlain] at ht <;> cases v <;> simp_all [Val.HasTy, Val.erase, PVal.plain]

omit [NatCast K] [Prims K M] in
theorem plain_eraseAll {vs : List (Val K M)} {ts : List (Ty E)} (ht : ∀ u ∈ ts, u.isPlain = true) (h : ArgsHaveTy vs ts) :
    (vs.map Val.erase).map PVal.plain = vs := by
  induction h with
  | nil => rfl
  | cons hv _ ih => rw [List.map_cons, List.map_cons, plain_erase (ht _ (by simp)) hv, ih (fun u hu => ht u (by simp [hu]))]

/-- Values have their types, and forgetting the units commutes with running. -/
def EraseInv (n : Nat) (fac : U → M) (ρ : List (Val K M)) : Sum (Tm E U K M × Ty E) (Tms E U K M × List (Ty E)) → Prop
  | .inl (e, t) => (∀ v, e.eval n fac ρ = some v → v.HasTy t) ∧ e.erase.eval fac (ρ.map Val.erase) = (e.eval n fac ρ).map Val.erase
  | .inr (es, ts) => (∀ vs, es.eval n fac ρ = some vs → ArgsHaveTy vs ts) ∧
      es.erase.eval fac (ρ.map Val.erase) = (es.eval n fac ρ).map (List.map Val.erase)

theorem checks_erase {ss : List Storage} {n : Nat} {dimOf : U → DimVal E} {ok : Fn E → List (Ty E) → Prop}
    {Γ : List (Ty E)} {fac : U → M} {ρ : List (Val K M)} (hρ : ArgsHaveTy ρ Γ) {j} (h : Checks ss n dimOf ok Γ j) : EraseInv n fac ρ j := by
  induction h with
  | @var x t hx =>
    refine ⟨?_, by simp [Tm.erase, Tm.eval, PTm.eval]⟩
    intro v hv
    obtain ⟨v', hv', hty⟩ := forall₂_lookup hρ hx
    simp only [Tm.eval] at hv
    rw [hv] at hv'; cases hv'; exact hty
  | num hr => exact ⟨fun v hv => by cases hv; exact hr, rfl⟩
  | @unit u => exact ⟨fun v hv => by cases hv; trivial, rfl⟩
  | @op o i l r lt rt out res ho hn _ _ hty hres ihl ihr =>
    subst hn
    obtain ⟨tl, el⟩ := ihl
    obtain ⟨tr, er⟩ := ihr
    have hres' : res = out.ty lt.ty := by rw [hres]; cases out <;> rfl
    subst hres'
    refine ⟨?_, ?_⟩
    · intro v hv
      simp only [Tm.eval, bindM_eq_some] at hv
      obtain ⟨a, ha, b, hb, hv⟩ := hv
      obtain ⟨v', h1, h2⟩ := op_sound ho hty (tl a ha) (tr b hb)
      rw [hv] at h1; cases h1; exact h2
    · simp only [Tm.eval, Tm.erase, PTm.eval]
      rw [el, er]
      cases ha : l.eval i.n fac ρ with
      | none => rfl
      | some a =>
        cases hb : r.eval i.n fac ρ with
        | none => rfl
        | some b =>
          simp only [Option.map_some, Option.bind_eq_bind, Option.bind_some]
          exact op_erase ho hty (tl a ha) (tr b hb)
  | @call f tys args t hok hsig _ ih =>
    obtain ⟨ht, e⟩ := ih
    refine ⟨?_, ?_⟩
    · intro v hv
      simp only [Tm.eval, bindM_eq_some] at hv
      obtain ⟨vs, hvs, hv⟩ := hv
      rcases fn_sound hsig (ht vs hvs) with ⟨v', h1, h2⟩ | ⟨-, h1⟩
      · rw [hv] at h1; cases h1; exact h2
      · rw [hv] at h1; cases h1
    · simp only [Tm.eval, Tm.erase, PTm.eval]
      rw [e]
      cases hvs : args.eval n fac ρ with
      | none => rfl
      | some vs =>
        simp only [Option.map_some, Option.bind_eq_bind, Option.bind_some]
        exact fn_erase hsig (ht vs hvs)
  | @plain t g args tys hp hps _ hg ih =>
    obtain ⟨ht, e⟩ := ih
    refine ⟨?_, ?_⟩
    · intro v hv
      simp only [Tm.eval, bindM_eq_some] at hv
      obtain ⟨vs, hvs, hv⟩ := hv
      exact hg vs v (ht vs hvs) hv
    · simp only [Tm.eval, Tm.erase, PTm.eval]
      rw [e]
      cases hvs : args.eval n fac ρ with
      | none => rfl
      | some vs =>
        simp only [Option.map_some, Option.bind_eq_bind, Option.bind_some]
        rw [plain_eraseAll hps (ht vs hvs)]
  | @ite c a b t _ _ _ ihc iha ihb =>
    obtain ⟨tc, ec⟩ := ihc
    obtain ⟨ta, ea⟩ := iha
    obtain ⟨tb, eb⟩ := ihb
    refine ⟨?_, ?_⟩
    · intro v hv
      simp only [Tm.eval, bindM_eq_some] at hv
      obtain ⟨w, hw, hv⟩ := hv
      split at hv
      · exact ta v hv
      · exact tb v hv
      · cases hv
    · simp only [Tm.eval, Tm.erase, PTm.eval]
      rw [ec, ea, eb]
      cases hc : c.eval n fac ρ with
      | none => rfl
      | some v =>
        have := tc v hc
        cases v <;> simp only [Val.HasTy] at this
        rename_i b
        cases b <;> rfl
  | nil => exact ⟨fun vs hvs => by cases hvs; exact .nil, rfl⟩
  | @cons a as t ts _ _ iha ihas =>
    obtain ⟨ta, ea⟩ := iha
    obtain ⟨tas, eas⟩ := ihas
    refine ⟨?_, ?_⟩
    · intro vs hvs
      simp only [Tms.eval, bindM_eq_some] at hvs
      obtain ⟨v, hv, ws, hws, hvs⟩ := hvs
      cases hvs
      exact .cons (ta v hv) (tas ws hws)
    · simp only [Tms.eval, Tms.erase, PTms.eval]
      rw [ea, eas]
      cases a.eval n fac ρ <;> cases as.eval n fac ρ <;> rfl

/-- Expressions: without units, a type-checked expression computes the same number. -/
theorem C74_terms {ss : List Storage} {n : Nat} {dimOf : U → DimVal E} {ok : Fn E → List (Ty E) → Prop} {Γ : List (Ty E)} {e : Tm E U K M} {t : Ty E}
    (h : Checks ss n dimOf ok Γ (.inl (e, t))) (fac : U → M) {ρ : List (Val K M)} (hρ : ArgsHaveTy ρ Γ) :
    e.erase.eval fac (ρ.map Val.erase) = (e.eval n fac ρ).map Val.erase := (checks_erase hρ h).2

omit [NatCast K] [Prims K M] in
theorem back_erase (vecs : List Nat) (ps ls : List (List (Val K M))) :
    (vecs.zip (ps.map (List.map Val.erase))).foldl (fun vs p => vs.set p.1 p.2) (ls.map (List.map Val.erase)) =
      ((vecs.zip ps).foldl (fun vs p => vs.set p.1 p.2) ls).map (List.map Val.erase) := by
  induction vecs generalizing ps ls with
  | nil => rfl
  | cons a vecs ih =>
    cases ps with
    | nil => rfl
    | cons p ps =>
      simp only [List.map_cons, List.zip_cons_cons, List.foldl_cons]
      rw [← List.map_set, ih]

omit [NatCast K] [Prims K M] in
theorem passed_erase (vecs : List Nat) (ls : List (List (Val K M))) :
    vecs.mapM ((ls.map (List.map Val.erase))[·]?) = (vecs.mapM (ls[·]?)).map (List.map (List.map Val.erase)) := by
  induction vecs with
  | nil => rfl
  | cons a vecs ih =>
    rw [List.mapM_cons, List.mapM_cons, ih, List.getElem?_map]
    cases ls[a]? <;> [rfl; cases vecs.mapM (ls[·]?) <;> rfl]

/-- **C74**: running a type-checked program without its units gives the numbers that the program gives, and no result exactly when the program has none. -/
theorem C74_programs {ss : List Storage} {n : Nat} {dimOf : U → DimVal E} {ok : Fn E → List (Ty E) → Prop} {F : List (Func E U K M)}
    (hF : FuncsCheck ss n dimOf ok F) {Γ Δ : List (Ty E)} {c : Cmd E U K M} (h : CmdChecks ss n dimOf ok F Γ Δ c) (fac : U → M) (fuel : Nat)
    {σ : Store K M} (hσ : σ.HasTys Γ Δ) :
    c.erase.exec fac (F.map Func.erase) fuel σ.erase = (c.exec n fac F fuel σ).map Store.erase := by
  suffices h : c.erase.exec fac (F.map Func.erase) fuel σ.erase = (c.exec n fac F fuel σ).map Store.erase ∧
      ∀ σ', c.exec n fac F fuel σ = some σ' → σ'.HasTys Γ Δ from h.1
  have branch : ∀ {Γ : List (Ty E)} {b : Tm E U K M} {ρ : List (Val K M)}, ArgsHaveTy ρ Γ → Checks ss n dimOf ok Γ (.inl (b, .bool)) →
      b.eval n fac ρ = some (.bool true) ∨ b.eval n fac ρ = some (.bool false) ∨ b.eval n fac ρ = none := by
    intro Γ b ρ hρ hb
    cases hv : b.eval n fac ρ with
    | none => simp
    | some v =>
      have := (checks_erase hρ hb).1 v hv
      cases v <;> simp only [Val.HasTy] at this
      rename_i w
      cases w <;> simp
  induction fuel using Nat.strong_induction_on generalizing Γ Δ c σ with
  | _ fuel ihf =>
  induction h generalizing σ with
  | skip => exact ⟨by simp [Cmd.exec, Cmd.erase, PCmd.exec], fun σ' h => by simp only [Cmd.exec, Option.some.injEq] at h; exact h ▸ hσ⟩
  | @assign Γ Δ x e t hx he =>
    obtain ⟨te, ee⟩ := checks_erase (fac := fac) hσ.1 he
    simp only [Cmd.exec, Cmd.erase, PCmd.exec]
    rw [Store.erase, ee]
    cases hv : e.eval n fac σ.vars with
    | none => exact ⟨rfl, by simp⟩
    | some v =>
      refine ⟨by simp [Store.erase, List.map_set], ?_⟩
      intro σ' h
      cases h
      exact ⟨argsHaveTy_set hσ.1 hx (te v hv), hσ.2⟩
  | @letIn Γ Δ e t c he _ ih =>
    obtain ⟨te, ee⟩ := checks_erase (fac := fac) hσ.1 he
    simp only [Cmd.exec, Cmd.erase, PCmd.exec]
    rw [Store.erase, ee]
    cases hv : e.eval n fac σ.vars with
    | none => exact ⟨rfl, by simp⟩
    | some v =>
      obtain ⟨h1, h2⟩ := ih (σ := { σ with vars := v :: σ.vars }) ⟨.cons (te v hv) hσ.1, hσ.2⟩
      simp only [Store.erase, List.map_cons] at h1
      simp only [Option.map_some, Option.bind_eq_bind, Option.bind_some]
      rw [h1]
      cases hc : c.exec n fac F fuel { σ with vars := v :: σ.vars } with
      | none => exact ⟨rfl, by simp⟩
      | some σ1 =>
        refine ⟨by simp [Store.erase, List.map_tail], ?_⟩
        intro σ' h
        obtain ⟨h3, h4⟩ := h2 σ1 hc
        cases h
        obtain ⟨vars, vecs⟩ := σ1
        cases h3 with
        | cons _ h3 => exact ⟨h3, h4⟩
  | @seq Γ Δ c d _ _ ihc ihd =>
    obtain ⟨h1, h2⟩ := ihc hσ
    simp only [Cmd.exec, Cmd.erase, PCmd.exec]
    rw [h1]
    cases hc : c.exec n fac F fuel σ with
    | none => exact ⟨rfl, by simp⟩
    | some σ1 => exact ihd (h2 σ1 hc)
  | @ite Γ Δ b c d hb _ _ ihc ihd =>
    have eb := (checks_erase (fac := fac) hσ.1 hb).2
    simp only [Cmd.exec, Cmd.erase, PCmd.exec]
    rw [show σ.erase.vars = σ.vars.map Val.erase from rfl, eb]
    rcases branch hσ.1 hb with hv | hv | hv <;> rw [hv]
    · exact ihc hσ
    · exact ihd hσ
    · exact ⟨rfl, by simp⟩
  | @loop Γ Δ b c hb hc ihc =>
    cases fuel with
    | zero => exact ⟨by simp [Cmd.exec, Cmd.erase, PCmd.exec], by simp [Cmd.exec]⟩
    | succ fuel =>
      have eb := (checks_erase (fac := fac) hσ.1 hb).2
      simp only [Cmd.exec, Cmd.erase, PCmd.exec]
      rw [show σ.erase.vars = σ.vars.map Val.erase from rfl, eb]
      rcases branch hσ.1 hb with hv | hv | hv <;> rw [hv]
      · obtain ⟨h1, h2⟩ := ihf fuel (by omega) hc hσ
        simp only [Option.map_some, Option.bind_eq_bind, Option.bind_some, Val.erase]
        rw [h1]
        cases hx : c.exec n fac F fuel σ with
        | none => exact ⟨rfl, by simp⟩
        | some σ1 => exact ihf fuel (by omega) (.loop hb hc) (h2 σ1 hx)
      · exact ⟨rfl, fun σ' h => by simp at h; exact h ▸ hσ⟩
      · exact ⟨rfl, by simp⟩
  | @vecIn Γ Δ t c _ ih =>
    obtain ⟨h1, h2⟩ := ih (σ := { σ with vecs := [] :: σ.vecs }) ⟨hσ.1, .cons (by simp) hσ.2⟩
    simp only [Store.erase, List.map_cons, List.map_nil] at h1
    simp only [Cmd.exec, Cmd.erase, PCmd.exec, Store.erase]
    rw [h1]
    cases hc : c.exec n fac F fuel { σ with vecs := [] :: σ.vecs } with
    | none => exact ⟨rfl, by simp⟩
    | some σ1 =>
      refine ⟨by simp [Store.erase, List.map_tail], ?_⟩
      intro σ' h
      obtain ⟨h3, h4⟩ := h2 σ1 hc
      cases h
      obtain ⟨vars, vecs⟩ := σ1
      cases h4 with
      | cons _ h4 => exact ⟨h3, h4⟩
  | @push Γ Δ a e t ha he =>
    obtain ⟨l, hl, hlt⟩ := forall₂_lookup hσ.2 ha
    obtain ⟨te, ee⟩ := checks_erase (fac := fac) hσ.1 he
    simp only [Cmd.exec, Cmd.erase, PCmd.exec, Store.erase]
    rw [ee, List.getElem?_map, hl]
    cases hv : e.eval n fac σ.vars with
    | none => exact ⟨rfl, by simp⟩
    | some v =>
      refine ⟨by simp [Store.erase, List.map_set], ?_⟩
      intro σ' h
      cases h
      refine ⟨hσ.1, forall₂_setAt hσ.2 ha ?_⟩
      intro w hw
      rcases List.mem_append.1 hw with hw | hw
      · exact hlt w hw
      · rw [List.mem_singleton.1 hw]; exact te v hv
  | @load Γ Δ x a g args tys t hx ha hp hargs =>
    obtain ⟨l, hl, hlt⟩ := forall₂_lookup hσ.2 ha
    obtain ⟨ta, ea⟩ := checks_erase (fac := fac) hσ.1 hargs
    simp only [Cmd.exec, Cmd.erase, PCmd.exec, Store.erase]
    rw [ea, List.getElem?_map, hl]
    cases hvs : args.eval n fac σ.vars with
    | none => exact ⟨rfl, by simp⟩
    | some vs =>
      simp only [Option.map_some, Option.bind_eq_bind, Option.bind_some]
      rw [plain_eraseAll hp (ta vs hvs)]
      cases hg : g vs with
      | none => exact ⟨rfl, by simp⟩
      | some i =>
        simp only [Option.bind_some, List.getElem?_map]
        cases hi : l[i]? with
        | none => exact ⟨rfl, by simp⟩
        | some v =>
          refine ⟨by simp [Store.erase, List.map_set], ?_⟩
          intro σ' h
          cases h
          exact ⟨argsHaveTy_set hσ.1 hx (hlt v (List.mem_of_getElem? hi)), hσ.2⟩
  | @store Γ Δ a g args tys e t ha hp hargs he =>
    obtain ⟨l, hl, hlt⟩ := forall₂_lookup hσ.2 ha
    obtain ⟨ta, ea⟩ := checks_erase (fac := fac) hσ.1 hargs
    obtain ⟨te, ee⟩ := checks_erase (fac := fac) hσ.1 he
    simp only [Cmd.exec, Cmd.erase, PCmd.exec, Store.erase]
    rw [ea, ee, List.getElem?_map, hl]
    cases hvs : args.eval n fac σ.vars with
    | none => exact ⟨rfl, by simp⟩
    | some vs =>
      simp only [Option.map_some, Option.bind_eq_bind, Option.bind_some]
      rw [plain_eraseAll hp (ta vs hvs)]
      cases hg : g vs with
      | none => exact ⟨rfl, by simp⟩
      | some i =>
        cases hv : e.eval n fac σ.vars with
        | none => exact ⟨rfl, by simp⟩
        | some v =>
          simp only [Option.map_some, Option.bind_some, List.length_map]
          by_cases hi : i < l.length
          · rw [if_pos hi, if_pos hi]
            refine ⟨by simp [Store.erase, List.map_set], ?_⟩
            intro σ' h
            cases h
            refine ⟨hσ.1, forall₂_setAt hσ.2 ha ?_⟩
            intro w hw'
            rcases List.mem_or_eq_of_mem_set hw' with hw' | rfl
            · exact hlt w hw'
            · exact te _ hv
          · rw [if_neg hi, if_neg hi]
            exact ⟨rfl, by simp⟩
  | @len Γ Δ x a t hx ha =>
    obtain ⟨l, hl, -⟩ := forall₂_lookup hσ.2 ha
    simp only [Cmd.exec, Cmd.erase, PCmd.exec, Store.erase]
    rw [List.getElem?_map, hl]
    refine ⟨by simp [Store.erase, List.map_set, Val.erase], ?_⟩
    intro σ' h
    cases h
    exact ⟨argsHaveTy_set hσ.1 hx rfl, hσ.2⟩
  | @call Γ Δ x f args vecs fn hf hx hargs hnd hvecs =>
    cases fuel with
    | zero => exact ⟨by simp [Cmd.exec, Cmd.erase, PCmd.exec], by simp [Cmd.exec]⟩
    | succ fuel =>
      obtain ⟨-, hbody, hres⟩ := hF fn (List.mem_of_getElem? hf)
      obtain ⟨ps, p1, p3⟩ := passed_some hσ.2 hvecs
      obtain ⟨ta, ea⟩ := checks_erase (fac := fac) hσ.1 hargs
      simp only [Cmd.exec, Cmd.erase, PCmd.exec, Store.erase]
      rw [ea, List.getElem?_map, hf, passed_erase, p1]
      simp only [Option.map_some, Option.bind_eq_bind, Option.bind_some]
      cases hvs : args.eval n fac σ.vars with
      | none => exact ⟨rfl, by simp⟩
      | some vs =>
        obtain ⟨h1, h2⟩ := ihf fuel (by omega) hbody (σ := ⟨vs, ps⟩) ⟨ta vs hvs, p3⟩
        simp only [Store.erase] at h1
        simp only [Option.map_some, Option.bind_some, Func.erase]
        rw [h1]
        cases hc : fn.body.exec n fac F fuel ⟨vs, ps⟩ with
        | none => exact ⟨rfl, by simp⟩
        | some σ1 =>
          obtain ⟨h3, h4⟩ := h2 σ1 hc
          obtain ⟨tr, er⟩ := checks_erase (fac := fac) h3 hres
          simp only [Option.map_some, Option.bind_some]
          rw [show σ1.erase.vars = σ1.vars.map Val.erase from rfl, er]
          cases hr : fn.result.eval n fac σ1.vars with
          | none => exact ⟨rfl, by simp⟩
          | some v =>
            refine ⟨by simp [Store.erase, List.map_set, back_erase], ?_⟩
            intro σ' h
            cases h
            exact ⟨argsHaveTy_set hσ.1 hx (tr v hr), back_tys hvecs h4 hσ.2⟩

/-- Dimensions do not influence what a program computes: two type-checked programs (in unit systems with the same factors, possibly with other dimensions and another
type of exponents) that are the same without units, started with the same numbers, compute the same numbers. -/
theorem C74_dimensions {E' : Type} [Exponent E'] [LawfulExponent E'] [FieldOps E'] [LawfulFieldOps E'] [DecidableEq E']
    {ss ss' : List Storage} {n n' : Nat} {dimOf : U → DimVal E} {dimOf' : U → DimVal E'} {ok : Fn E → List (Ty E) → Prop}
    {ok' : Fn E' → List (Ty E') → Prop} {F : List (Func E U K M)} {F' : List (Func E' U K M)}
    (hF : FuncsCheck ss n dimOf ok F) (hF' : FuncsCheck ss' n' dimOf' ok' F') (eF : F.map Func.erase = F'.map Func.erase)
    {Γ Δ : List (Ty E)} {Γ' Δ' : List (Ty E')} {c : Cmd E U K M} {c' : Cmd E' U K M}
    (h : CmdChecks ss n dimOf ok F Γ Δ c) (h' : CmdChecks ss' n' dimOf' ok' F' Γ' Δ' c') (ec : c.erase = c'.erase)
    (fac : U → M) (fuel : Nat) {σ σ' : Store K M} (hσ : σ.HasTys Γ Δ) (hσ' : σ'.HasTys Γ' Δ') (eσ : σ.erase = σ'.erase) :
    (c.exec n fac F fuel σ).map Store.erase = (c'.exec n' fac F' fuel σ').map Store.erase := by
  rw [← C74_programs hF h fac fuel hσ, ← C74_programs hF' h' fac fuel hσ', eF, ec, eσ]

/-- **C74 for `f32` and `f64`**: the same bits, whatever the platform's functions. -/
theorem C74_float (P : PlatformFns) : letI := softPrims P
    ∀ {ss : List Storage} {n : Nat} {dimOf : U → DimVal E} {ok : Fn E → List (Ty E) → Prop} {F : List (Func E U Fl Magnitude)}
      (_ : FuncsCheck ss n dimOf ok F) {Γ Δ : List (Ty E)} {c : Cmd E U Fl Magnitude} (_ : CmdChecks ss n dimOf ok F Γ Δ c) (fac : U → Magnitude)
      (fuel : Nat) {σ : Store Fl Magnitude} (_ : σ.HasTys Γ Δ),
      c.erase.exec fac (F.map Func.erase) fuel σ.erase = (c.exec n fac F fuel σ).map Store.erase := by
  let := softPrims P
  intro ss n dimOf ok F hF Γ Δ c h fac fuel σ hσ
  exact C74_programs hF h fac fuel hσ

/-! ## Examples -/

/-- `while x.is_positive() { x += x }` for a length `x` is, without units, `while 0.0 < x { x = x + x }`. -/
example : (.loop (.call .isPositive [.quantity .f64 [1, 0]] (.cons (.var 0) .nil))
        (.assign 0 (.op ⟨.add, qG, qG⟩ ⟨2, [1, 0], [1, 0], [1, 0], .f64, .f64, .f64⟩ (.var 0) (.var 0))) : Cmd Int Bool K M).erase =
    .loop (.call .gtZero .f64 (.cons (.var 0) .nil)) (.assign 0 (.op .add .f64 .f64 (.var 0) (.var 0))) := rfl

/-- `meters.new(3.0)` is `3.0 * factor`. -/
example (x : K) : (.call .unitNew [.unit [1, 0], .bare .f64] (.cons (.unit true) (.cons (.num .f64 [x]) .nil)) : Tm Int Bool K M).erase =
    .call .timesFactor .f64 (.cons (.factor true) (.cons (.num [x]) .nil)) := rfl

/-- The product of two lengths and the product of a length and a time are the same without units. -/
example : (.op ⟨.mul, qG, qG⟩ ⟨2, [1, 0], [1, 0], [1, 0], .f64, .f64, .f64⟩ (.var 0) (.var 1) : Tm Int Bool K M).erase =
    (.op ⟨.mul, qG, qG⟩ ⟨2, [1, 0], [0, 1], [1, 0], .f64, .f64, .f64⟩ (.var 0) (.var 1) : Tm Int Bool K M).erase := rfl

/-- A type-checked program with a function, run with units and without: `fn double(x: Length) -> Length { x + x }`, `a = double(a)`. -/
example (P : PlatformFns) : letI := softPrims P
    let f : Func Int Bool Fl Magnitude := ⟨[.quantity .f64 [1, 0]], [], .quantity .f64 [1, 0], .skip,
      .op ⟨.add, qG, qG⟩ ⟨2, [1, 0], [1, 0], [1, 0], .f64, .f64, .f64⟩ (.var 0) (.var 0)⟩
    let c : Cmd Int Bool Fl Magnitude := .call 0 0 (.cons (.var 0) .nil) []
    FuncsCheck [.f64] 2 twoUnits (fun _ _ => True) [f] ∧ CmdChecks [.f64] 2 twoUnits (fun _ _ => True) [f] [.quantity .f64 [1, 0]] [] c ∧
    (Store.mk [.quantity [f64Fmt.ofInt 3]] [] : Store Fl Magnitude).HasTys ([.quantity .f64 [1, 0]] : List (Ty Int)) [] ∧
    (c.exec 2 (fun _ => ⟨1, 0, 1⟩) [f] 1 ⟨[.quantity [f64Fmt.ofInt 3]], []⟩).map Store.erase = some ⟨[.num [f64Fmt.ofInt 6]], []⟩ := by
  let := softPrims P
  intro f c
  refine ⟨?_, ?_, ?_, ?_⟩
  · intro g hg
    cases List.mem_singleton.1 hg
    refine ⟨?_, .skip, .op (lt := ⟨.value, .quantity .f64 [1, 0]⟩) (rt := ⟨.value, .quantity .f64 [1, 0]⟩) (out := .value (.quantity .f64 [1, 0]))
      (by decide) rfl (.var rfl) (.var rfl) ⟨rfl, rfl, rfl, rfl, .f64, rfl, _, _, rfl, rfl, rfl⟩ rfl⟩
    intro t ht
    cases List.mem_singleton.1 ht
    intro d hd
    injection hd with hd
    subst hd
    exact ⟨rfl, by intro e he; simp at he; rcases he with rfl | rfl <;> trivial⟩
  · exact .call rfl rfl (.cons (.var rfl) .nil) List.nodup_nil .nil
  · exact ⟨.cons rfl .nil, .nil⟩
  · have h3 : f64Fmt.add (f64Fmt.ofInt 3) (f64Fmt.ofInt 3) = f64Fmt.ofInt 6 := by decide +kernel
    rw [← h3]
    simp only [c, Cmd.exec, List.getElem?_cons_zero, Option.bind_eq_bind, Option.bind_some, Tms.eval, Tm.eval, List.mapM_nil, Option.pure_def, f]
    rfl
end Diman
