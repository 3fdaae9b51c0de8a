import Verif.Spec.Generic
import Verif.Proofs.DimType
import Verif.Proofs.Scale
/-!
# Instances of generic functions (C69)
Putting dimensions for the parameters of a program preserves typing and does not change what it computes.
-/
set_option linter.unusedSectionVars false
set_option linter.unusedSimpArgs false
set_option linter.unusedTactic false
namespace Diman
open LawfulExponent

instance : LawfulFieldOps ℚ where
  zero_canon := trivial
  zero_val := rfl
  add_spec _ _ h := ⟨trivial, (Option.some.inj h).symm⟩
  sub_spec _ _ h := ⟨trivial, (Option.some.inj h).symm⟩
  neg_spec _ h := ⟨trivial, (Option.some.inj h).symm⟩
  mul_spec _ h := ⟨trivial, (Option.some.inj h).symm⟩
  div2_spec _ h := ⟨trivial, (Option.some.inj h).symm⟩
  div3_spec _ h := ⟨trivial, (Option.some.inj h).symm⟩
  entry_spec _ h := (Option.some.inj h).symm
  add_comm a b := congrArg some (add_comm a b)

instance : ExactFields Int where
  value i := i
  zero := LawfulFieldOps.zero_val (E := Int)
  add h := (LawfulFieldOps.add_spec (E := Int) trivial trivial h).2
  sub h := (LawfulFieldOps.sub_spec (E := Int) trivial trivial h).2
  neg h := (LawfulFieldOps.neg_spec (E := Int) trivial h).2
  mul h := (LawfulFieldOps.mul_spec (E := Int) trivial h).2
  div2 h := (LawfulFieldOps.div2_spec (E := Int) trivial h).2
  div3 h := (LawfulFieldOps.div3_spec (E := Int) trivial h).2

/-- A map of dimensions that commutes with what the generated code does with dimensions. -/
structure DimHom {E E' : Type} [FieldOps E] [FieldOps E'] (n n' : Nat) (Φ : DimVal E → DimVal E') : Prop where
  none : Φ (DimVal.none n) = DimVal.none n'
  add : ∀ {a b c}, DimVal.add a b = some c → DimVal.add (Φ a) (Φ b) = some (Φ c)
  sub : ∀ {a b c}, DimVal.sub a b = some c → DimVal.sub (Φ a) (Φ b) = some (Φ c)
  neg : ∀ {a c}, DimVal.neg a = some c → DimVal.neg (Φ a) = some (Φ c)
  mul : ∀ {a c} {i : Int}, DimVal.mul a i = some c → DimVal.mul (Φ a) i = some (Φ c)
  div2 : ∀ {a c}, DimVal.div2 a = some c → DimVal.div2 (Φ a) = some (Φ c)
  div3 : ∀ {a c}, DimVal.div3 a = some c → DimVal.div3 (Φ a) = some (Φ c)

section
variable {E E' U : Type} [FieldOps E] [FieldOps E'] [DecidableEq E] [DecidableEq E'] {n n' : Nat} {Φ : DimVal E → DimVal E'}

theorem body_onDims {K M : Type} [Prims K M] (s : Storage) (f : Fn E) (vs : List (Val K M)) : (f.onDims Φ).body s vs = f.body s vs := by
  cases f <;> rfl
theorem storageOf_onDims (tys : List (Ty E)) : storageOf (tys.map (Ty.onDims Φ)) = storageOf tys := by
  induction tys with
  | nil => rfl
  | cons t l ih => cases t <;> simp_all [storageOf, Ty.onDims]

theorem map_ty_hom {o : Option (DimVal E)} {o' : Option (DimVal E')} {f : DimVal E → Ty E} {g : DimVal E' → Ty E'} {t : Ty E}
    (hg : ∀ e, (f e).onDims Φ = g (Φ e)) (ho : ∀ e, o = some e → o' = some (Φ e)) (h : o.map f = some t) : o'.map g = some (t.onDims Φ) := by
  obtain ⟨e, he, rfl⟩ := Option.map_eq_some_iff.1 h
  rw [ho e he, Option.map_some, hg]

theorem intoQuantityOk_hom (H : DimHom n n' Φ) {s : Storage} {d : DimVal E} {t : Ty E} (h : intoQuantityOk n s d t = true) :
    intoQuantityOk n' s (Φ d) (t.onDims Φ) = true := by
  cases t <;> simp only [intoQuantityOk, Ty.onDims, Bool.and_eq_true, decide_eq_true_eq, Bool.false_eq_true] at h ⊢
  · exact ⟨h.1, by rw [h.2]⟩
  · exact ⟨h.1, by rw [h.2, H.none]⟩

theorem sig_hom (H : DimHom n n' Φ) {f : Fn E} {args : List (Ty E)} {t : Ty E} (h : f.sig n args = some t) :
    (f.onDims Φ).sig n' (args.map (Ty.onDims Φ)) = some (t.onDims Φ) := by
  cases f
  case sum s d =>
    simp only [Fn.sig] at h
    split at h
    · rename_i hall
      cases h
      simp only [Fn.onDims, Fn.sig]
      rw [if_pos]
      · rfl
      · simp only [List.all_map, List.all_eq_true, decide_eq_true_eq, Function.comp_apply] at hall ⊢
        intro x hx; rw [hall x hx]; rfl
    · simp at h
  all_goals rcases args with _ | ⟨a, _ | ⟨b, _ | ⟨c, _ | ⟨_, _⟩⟩⟩⟩
  all_goals try (first | (simp [Fn.sig] at h; done) | (cases a <;> simp [Fn.sig] at h; done))
  case default.nil | zero.nil => cases h; rfl
  all_goals cases a <;> try (simp [Fn.sig] at h; done)
  case min.cons.cons.nil.quantity | max.cons.cons.nil.quantity =>
    rename_i s d
    simp only [Fn.sig] at h
    simp only [Fn.onDims, Fn.sig, List.map, Ty.onDims.eq_1]
    split at h <;> rename_i h1 <;> simp only [h1] at h ⊢ <;> split at h <;> rename_i h2 <;> cases h
    · rw [if_pos trivial, if_pos (intoQuantityOk_hom H h2)]; rfl
    · subst h2; simp [Ty.onDims]
  case clamp.cons.cons.cons.nil.quantity =>
    simp only [Fn.sig] at h
    simp only [Fn.onDims, Fn.sig, List.map, Ty.onDims.eq_1]
    split at h <;> rename_i h1 <;> cases h
    simp only [Bool.and_eq_true, decide_eq_true_eq] at h1
    rw [if_pos]
    · rfl
    · simp only [Bool.and_eq_true, decide_eq_true_eq]
      exact ⟨⟨h1.1.1, intoQuantityOk_hom H h1.1.2⟩, by rw [h1.2]⟩
  all_goals try (cases b <;> try (simp [Fn.sig] at h; done))
  all_goals try (cases c <;> try (simp [Fn.sig] at h; done))
  all_goals simp only [Fn.sig] at h
  all_goals simp only [Fn.onDims, Fn.sig, List.map, Ty.onDims]
  all_goals try (cases h; simp [H.none, Ty.onDims]; done)
  all_goals try (split at h <;> rename_i h1 <;> first | (cases h; done) | skip)
  all_goals try (cases h; (try simp only [Bool.and_eq_true, decide_eq_true_eq] at h1); simp [h1, H.none, Ty.onDims]; done)
  all_goals try (rw [if_pos h1])
  case distanceSquared.cons.cons.nil.quantity.quantity.isTrue =>
    simp only [Bool.and_eq_true, decide_eq_true_eq] at h1
    rw [if_pos (by simp [h1])]
    exact map_ty_hom (fun _ => by rfl) (fun e he => H.mul he) h
  all_goals refine map_ty_hom (fun _ => by rfl) (fun e he => ?_) h
  all_goals first
    | exact H.mul he
    | exact H.div2 he
    | exact H.div3 he
    | exact H.add he
    | exact H.sub he

/-- An operand type of an instance. -/
def OpTy.onDims (Φ : DimVal E → DimVal E') (l : OpTy E) : OpTy E' := ⟨l.ref, l.ty.onDims Φ⟩
/-- An outcome of an instance. -/
def OpOut.onDims (Φ : DimVal E → DimVal E') : OpOut E → OpOut E'
  | .value t => .value (t.onDims Φ)
  | .updated => .updated
  | .bool => .bool
  | .ordering => .ordering

theorem st_onDims (i : Inst E) (s : StName) : (i.onDims Φ n').st s = i.st s := by cases s <;> rfl
theorem dim_onDims (i : Inst E) (s : DimName) : (i.onDims Φ n').dim s = Φ (i.dim s) := by cases s <;> rfl

theorem typeForOperand_hom {i : Inst E} (H : DimHom i.n n' Φ) {op : Operand} {st : StName} {dim : Option DimName} {t : Ty E}
    (h : typeForOperand i op st dim = some t) : typeForOperand (i.onDims Φ n') op st dim = some (t.onDims Φ) := by
  unfold typeForOperand at h ⊢
  split at h
  · obtain ⟨d, rfl, rfl⟩ := Option.map_eq_some_iff.1 h
    simp [Ty.onDims, st_onDims, dim_onDims]
  · cases h
    simp only [Ty.onDims, st_onDims, H.none]
    rfl
  · cases h
    simp [Ty.onDims, st_onDims]

theorem evalDim_hom {i : Inst E} (H : DimHom i.n n' Φ) {e : DimExpr} {d : DimVal E} (h : i.evalDim e = some d) :
    (i.onDims Φ n').evalDim e = some (Φ d) := by
  cases e <;> simp only [Inst.evalDim, dim_onDims] at h ⊢
  · cases h; rfl
  · exact H.add h
  · exact H.sub h
  · exact H.neg h
  · cases h; rw [H.none]; rfl

theorem typed_hom {o : OperatorTrait} {i : Inst E} (H : DimHom i.n n' Φ) {l r : OpTy E} {out : OpOut E} (h : o.Typed i l r out) :
    o.Typed (i.onDims Φ n') (l.onDims Φ) (r.onDims Φ) (out.onDims Φ) := by
  obtain ⟨h1, h2, h3, h4, s, h5, h6⟩ := h
  refine ⟨h1, h2, typeForOperand_hom H h3, typeForOperand_hom H h4, s, by rw [st_onDims, st_onDims]; exact h5, ?_⟩
  obtain ⟨name, lhs, rhs⟩ := o
  cases name <;> simp only at h6 ⊢
  all_goals first
    | (subst h6; rfl)
    | (obtain ⟨e, d, h7, h8, rfl⟩ := h6; exact ⟨e, Φ d, h7, evalDim_hom H h8, rfl⟩)

theorem hasTy_onDims (v : Val ℝ ℝ) (t : Ty E) : v.HasTy (t.onDims Φ) ↔ v.HasTy t := by
  cases v <;> cases t <;> rfl
theorem argsHaveTy_onDims (vs : List (Val ℝ ℝ)) (ts : List (Ty E)) : ArgsHaveTy vs (ts.map (Ty.onDims Φ)) ↔ ArgsHaveTy vs ts := by
  unfold ArgsHaveTy
  rw [List.forall₂_map_right_iff]
  simp only [hasTy_onDims]
theorem isPlain_onDims (t : Ty E) : (t.onDims Φ).isPlain = t.isPlain := by cases t <;> rfl

variable {ss : List Storage} {dimOf : U → DimVal E} {ok : Fn E → List (Ty E) → Prop} {ok' : Fn E' → List (Ty E') → Prop}

/-- A judgement about an instance. -/
def judgeOnDims (Φ : DimVal E → DimVal E') (n' : Nat) :
    Sum (Tm E U × Ty E) (Tms E U × List (Ty E)) → Sum (Tm E' U × Ty E') (Tms E' U × List (Ty E'))
  | .inl (e, t) => .inl (e.onDims Φ n', t.onDims Φ)
  | .inr (es, ts) => .inr (es.onDims Φ n', ts.map (Ty.onDims Φ))

theorem checks_hom (H : DimHom n n' Φ) (hok : ∀ f tys, ok f tys → ok' (f.onDims Φ) (tys.map (Ty.onDims Φ))) {Γ : List (Ty E)}
    {j : Sum (Tm E U × Ty E) (Tms E U × List (Ty E))} (h : Checks ss n dimOf ok Γ j) :
    Checks ss n' (fun u => Φ (dimOf u)) ok' (Γ.map (Ty.onDims Φ)) (judgeOnDims Φ n' j) := by
  induction h with
  | var hx => exact .var (by rw [List.getElem?_map, hx]; rfl)
  | num hr => exact .num hr
  | unit => exact .unit
  | @op o i l r lt rt out res ho hn _ _ hty hres ihl ihr =>
    subst hn
    refine .op (lt := lt.onDims Φ) (rt := rt.onDims Φ) (out := out.onDims Φ) ho rfl ihl ihr (typed_hom H hty) ?_
    rw [hres]; cases out <;> rfl
  | call h1 h2 _ ih => exact .call (hok _ _ h1) (sig_hom H h2) ih
  | plain h1 h2 _ h4 ih =>
    refine .plain (by rw [isPlain_onDims]; exact h1) ?_ ih ?_
    · intro u hu
      obtain ⟨t, ht, rfl⟩ := List.mem_map.1 hu
      rw [isPlain_onDims]; exact h2 t ht
    · intro vs v hvs hv
      exact (hasTy_onDims v _).2 (h4 vs v ((argsHaveTy_onDims vs _).1 hvs) hv)
  | ite _ _ _ ih1 ih2 ih3 => exact .ite ih1 ih2 ih3
  | nil => exact .nil
  | cons _ _ ih1 ih2 => exact .cons ih1 ih2

theorem plain_all {tys : List (Ty E)} (h : ∀ u ∈ tys, Ty.isPlain u = true) : ∀ u ∈ tys.map (Ty.onDims Φ), Ty.isPlain u = true := by
  intro u hu
  obtain ⟨t, ht, rfl⟩ := List.mem_map.1 hu
  rw [isPlain_onDims]; exact h t ht

theorem cmdChecks_hom (H : DimHom n n' Φ) (hok : ∀ f tys, ok f tys → ok' (f.onDims Φ) (tys.map (Ty.onDims Φ))) {F : List (Func E U)}
    {Γ Δ : List (Ty E)} {c : Cmd E U} (h : CmdChecks ss n dimOf ok F Γ Δ c) :
    CmdChecks ss n' (fun u => Φ (dimOf u)) ok' (F.map (Func.onDims Φ n')) (Γ.map (Ty.onDims Φ)) (Δ.map (Ty.onDims Φ)) (c.onDims Φ n') := by
  have look : ∀ {Γ : List (Ty E)} {x : Nat} {t : Ty E}, Γ[x]? = some t → (Γ.map (Ty.onDims Φ))[x]? = some (t.onDims Φ) := by
    intro Γ x t hx
    rw [List.getElem?_map, hx]; rfl
  induction h with
  | skip => exact .skip
  | assign hx he => exact .assign (look hx) (checks_hom H hok he)
  | letIn he _ ih => exact .letIn (checks_hom H hok he) ih
  | seq _ _ ih1 ih2 => exact .seq ih1 ih2
  | ite hb _ _ ih1 ih2 => exact .ite (checks_hom H hok hb) ih1 ih2
  | loop hb _ ih => exact .loop (checks_hom H hok hb) ih
  | vecIn _ ih => exact .vecIn ih
  | push ha he => exact .push (look ha) (checks_hom H hok he)
  | load hx ha hp hargs => exact .load (look hx) (look ha) (plain_all hp) (checks_hom H hok hargs)
  | store ha hp hargs he => exact .store (look ha) (plain_all hp) (checks_hom H hok hargs) (checks_hom H hok he)
  | len hx ha => exact .len (look hx) (look ha)
  | @call Γ Δ x f args vecs fn hf hx hargs hn hv =>
    refine .call (fn := fn.onDims Φ n') (by rw [List.getElem?_map, hf]; rfl) (look hx) (checks_hom H hok hargs) hn ?_
    change List.Forall₂ _ vecs (fn.vecs.map (Ty.onDims Φ))
    rw [List.forall₂_map_right_iff]
    exact hv.imp fun a t h => look h

variable [IdealFns]

/-- An instance computes the same. -/
theorem eval_hom (H : DimHom n n' Φ) {Γ : List (Ty E)} {fac : U → ℝ} {ρ : List (Val ℝ ℝ)}
    {j : Sum (Tm E U × Ty E) (Tms E U × List (Ty E))} (h : Checks ss n dimOf ok Γ j) :
    match j with
    | .inl (e, _) => (e.onDims Φ n').eval n' fac ρ = e.eval n fac ρ
    | .inr (es, _) => (es.onDims Φ n').eval n' fac ρ = es.eval n fac ρ := by
  induction h with
  | var hx => rfl
  | num hr => rfl
  | unit => rfl
  | op _ _ _ _ _ _ ihl ihr =>
    simp only at ihl ihr
    simp only [Tm.onDims, Tm.eval, ihl, ihr, st_onDims]
  | call _ h2 _ ih =>
    simp only at ih
    simp only [Tm.onDims, Tm.eval, ih, Fn.run, sig_hom H h2, h2, storageOf_onDims, body_onDims, Option.isNone_some]
  | plain _ _ _ _ ih =>
    simp only at ih
    simp only [Tm.onDims, Tm.eval, ih]
  | ite _ _ _ ih1 ih2 ih3 =>
    simp only at ih1 ih2 ih3
    simp only [Tm.onDims, Tm.eval, ih1, ih2, ih3]
  | nil => rfl
  | cons _ _ ih1 ih2 =>
    simp only at ih1 ih2
    simp only [Tms.onDims, Tms.eval, ih1, ih2]

theorem exec_hom (H : DimHom n n' Φ) {F : List (Func E U)}
    (hF : ∀ f ∈ F, CmdChecks ss n dimOf ok F f.params f.vecs f.body ∧ Checks ss n dimOf ok f.params (.inl (f.result, f.ret)))
    {Γ Δ : List (Ty E)} {c : Cmd E U} (h : CmdChecks ss n dimOf ok F Γ Δ c) (fac : U → ℝ) (fuel : Nat) (σ : Store) :
    (c.onDims Φ n').exec n' fac (F.map (Func.onDims Φ n')) fuel σ = c.exec n fac F fuel σ := by
  induction fuel using Nat.strong_induction_on generalizing Γ Δ c σ with
  | _ fuel ihf =>
  induction h generalizing σ with
  | skip => simp only [Cmd.onDims, Cmd.exec]
  | assign hx he => simp only [Cmd.onDims, Cmd.exec, eval_hom H he]
  | letIn he _ ih => simp only [Cmd.onDims, Cmd.exec, eval_hom H he, ih]
  | seq _ _ ih1 ih2 => simp only [Cmd.onDims, Cmd.exec, ih1, ih2]
  | ite hb _ _ ih1 ih2 => simp only [Cmd.onDims, Cmd.exec, eval_hom H hb, ih1, ih2]
  | @loop Γ Δ b c hb hc ih =>
    cases fuel with
    | zero => simp only [Cmd.onDims, Cmd.exec]
    | succ fuel =>
      have e1 := ihf fuel (Nat.lt_succ_self _) (.loop hb hc)
      simp only [Cmd.onDims] at e1
      have e2 := ihf fuel (Nat.lt_succ_self _) hc
      simp only [Cmd.onDims, Cmd.exec, eval_hom H hb, e1, e2]
  | vecIn _ ih => simp only [Cmd.onDims, Cmd.exec, ih]
  | push ha he => simp only [Cmd.onDims, Cmd.exec, eval_hom H he]
  | load hx ha hp hargs => simp only [Cmd.onDims, Cmd.exec, eval_hom H hargs]
  | store ha hp hargs he => simp only [Cmd.onDims, Cmd.exec, eval_hom H hargs, eval_hom H he]
  | len hx ha => simp only [Cmd.onDims, Cmd.exec]
  | @call Γ Δ x f args vecs fn hf hx hargs hn hv =>
    cases fuel with
    | zero => simp only [Cmd.onDims, Cmd.exec]
    | succ fuel =>
      obtain ⟨h1, h2⟩ := hF fn (List.mem_of_getElem? hf)
      have e1 := fun σ => ihf fuel (Nat.lt_succ_self _) h1 σ
      have e2 : ∀ ρ, (fn.result.onDims Φ n').eval n' fac ρ = fn.result.eval n fac ρ := fun ρ => eval_hom H h2
      simp only [Cmd.onDims, Cmd.exec, eval_hom H hargs, List.getElem?_map, hf, Option.map_some, Option.bind_eq_bind, Option.bind_some,
        Func.onDims, e1, e2]
end

/-! ### The two maps used: putting dimensions for the parameters, and making the parameters new base dimensions -/

section
variable {E : Type} [FieldOps E] [ExactFields E]

/-- A map of exponents that commutes with their arithmetic. -/
structure SymHom (h : Sym E → ℚ) : Prop where
  zero : h FieldOps.zero = 0
  add : ∀ {a b c : Sym E}, FieldOps.add a b = some c → h c = h a + h b
  sub : ∀ {a b c : Sym E}, FieldOps.sub a b = some c → h c = h a - h b
  neg : ∀ {a c : Sym E}, FieldOps.neg a = some c → h c = -h a
  mul : ∀ {a c : Sym E} {n : Int}, FieldOps.mul a n = some c → h c = h a * n
  div2 : ∀ {a c : Sym E}, FieldOps.div2 a = some c → h c = h a / 2
  div3 : ∀ {a c : Sym E}, FieldOps.div3 a = some c → h c = h a / 3

theorem symHom_at (p : Nat → ℚ) : SymHom (E := E) (Sym.at p) where
  zero := ExactFields.zero
  add {a b c} h := by
    cases a <;> cases b <;> simp only [FieldOps.add, Option.map_eq_some_iff, Option.some.injEq] at h
    case lit.lit => obtain ⟨e, he, rfl⟩ := h; exact ExactFields.add he
    all_goals subst h; rfl
  sub {a b c} h := by
    cases a <;> cases b <;> simp only [FieldOps.sub, Option.map_eq_some_iff, Option.some.injEq] at h
    case lit.lit => obtain ⟨e, he, rfl⟩ := h; exact ExactFields.sub he
    all_goals subst h; rfl
  neg {a c} h := by
    cases a <;> simp only [FieldOps.neg, Option.map_eq_some_iff, Option.some.injEq] at h
    case lit => obtain ⟨e, he, rfl⟩ := h; exact ExactFields.neg he
    all_goals subst h; rfl
  mul {a c n} h := by
    cases a <;> simp only [FieldOps.mul, Option.map_eq_some_iff, Option.some.injEq] at h
    case lit => obtain ⟨e, he, rfl⟩ := h; exact ExactFields.mul he
    all_goals subst h; rfl
  div2 {a c} h := by
    cases a <;> simp only [FieldOps.div2, Option.map_eq_some_iff, Option.some.injEq] at h
    case lit => obtain ⟨e, he, rfl⟩ := h; exact ExactFields.div2 he
    all_goals subst h; rfl
  div3 {a c} h := by
    cases a <;> simp only [FieldOps.div3, Option.map_eq_some_iff, Option.some.injEq] at h
    case lit => obtain ⟨e, he, rfl⟩ := h; exact ExactFields.div3 he
    all_goals subst h; rfl

omit [ExactFields E] in
theorem symHom_degree (j : Nat) : SymHom (E := E) (Sym.degree j) where
  zero := rfl
  add {a b c} h := by
    cases a <;> cases b <;> simp only [FieldOps.add, Option.map_eq_some_iff, Option.some.injEq] at h
    case lit.lit => obtain ⟨e, he, rfl⟩ := h; simp [Sym.degree]
    all_goals subst h; rfl
  sub {a b c} h := by
    cases a <;> cases b <;> simp only [FieldOps.sub, Option.map_eq_some_iff, Option.some.injEq] at h
    case lit.lit => obtain ⟨e, he, rfl⟩ := h; simp [Sym.degree]
    all_goals subst h; rfl
  neg {a c} h := by
    cases a <;> simp only [FieldOps.neg, Option.map_eq_some_iff, Option.some.injEq] at h
    case lit => obtain ⟨e, he, rfl⟩ := h; simp [Sym.degree]
    all_goals subst h; rfl
  mul {a c n} h := by
    cases a <;> simp only [FieldOps.mul, Option.map_eq_some_iff, Option.some.injEq] at h
    case lit => obtain ⟨e, he, rfl⟩ := h; simp [Sym.degree]
    all_goals subst h; rfl
  div2 {a c} h := by
    cases a <;> simp only [FieldOps.div2, Option.map_eq_some_iff, Option.some.injEq] at h
    case lit => obtain ⟨e, he, rfl⟩ := h; simp [Sym.degree]
    all_goals subst h; rfl
  div3 {a c} h := by
    cases a <;> simp only [FieldOps.div3, Option.map_eq_some_iff, Option.some.injEq] at h
    case lit => obtain ⟨e, he, rfl⟩ := h; simp [Sym.degree]
    all_goals subst h; rfl

theorem atDims_length (p : Nat → DimVal ℚ) (d : DimVal (Sym E)) : (DimVal.atDims p d).length = d.length := by
  induction d generalizing p with
  | nil => rfl
  | cons e d ih => simp [DimVal.atDims, ih]

theorem atDims_closed (p : Nat → DimVal ℚ) (d : DimVal E) : DimVal.atDims p d.closed = d.map ExactFields.value := by
  induction d generalizing p with
  | nil => rfl
  | cons e d ih =>
    change _ :: DimVal.atDims _ (DimVal.closed d) = _
    rw [ih]; rfl

theorem atDims_map1 {f : Sym E → Option (Sym E)} {g : ℚ → ℚ} (hfg : ∀ p {a c}, f a = some c → c.at p = g (a.at p))
    (p : Nat → DimVal ℚ) {d e : DimVal (Sym E)} (h : DimVal.map1 f d = some e) :
    DimVal.map1 (fun a => some (g a)) (DimVal.atDims p d) = some (DimVal.atDims p e) := by
  induction d generalizing p e with
  | nil => simp only [DimVal.map1, Option.some.injEq] at h; subst h; rfl
  | cons a d ih =>
    simp only [DimVal.map1, Option.bind_eq_bind, Option.pure_def, Option.bind_eq_some_iff, Option.some.injEq] at h
    obtain ⟨b, hb, e', he, rfl⟩ := h
    rw [DimVal.atDims, DimVal.map1, ih _ he, DimVal.atDims, hfg _ hb]
    rfl

theorem atDims_map2 {f : Sym E → Sym E → Option (Sym E)} {g : ℚ → ℚ → ℚ} (hfg : ∀ p {a b c}, f a b = some c → c.at p = g (a.at p) (b.at p))
    (p : Nat → DimVal ℚ) {d d2 e : DimVal (Sym E)} (h : DimVal.map2 f d d2 = some e) :
    DimVal.map2 (fun a b => some (g a b)) (DimVal.atDims p d) (DimVal.atDims p d2) = some (DimVal.atDims p e) := by
  induction d generalizing p d2 e with
  | nil =>
    cases d2 with
    | nil => simp only [DimVal.map2, Option.some.injEq] at h; subst h; rfl
    | cons b d2 => simp [DimVal.map2] at h
  | cons a d ih =>
    cases d2 with
    | nil => simp [DimVal.map2] at h
    | cons b d2 =>
      simp only [DimVal.map2, Option.bind_eq_bind, Option.pure_def, Option.bind_eq_some_iff, Option.some.injEq] at h
      obtain ⟨c, hc, e', he, rfl⟩ := h
      rw [DimVal.atDims, DimVal.atDims, DimVal.map2, ih _ he, DimVal.atDims, hfg _ hc]
      rfl

theorem dimHom_at (n : Nat) (p : Nat → DimVal ℚ) : DimHom (E := Sym E) n n (DimVal.atDims p) where
  none := by
    induction n generalizing p with
    | zero => rfl
    | succ n ih =>
      change _ :: DimVal.atDims _ (DimVal.none n) = _
      rw [ih]
      rw [(symHom_at _).zero]; rfl
  add h := atDims_map2 (fun p {_ _ _} h => (symHom_at p).add h) p h
  sub h := atDims_map2 (fun p {_ _ _} h => (symHom_at p).sub h) p h
  neg h := atDims_map1 (fun p {_ _} h => (symHom_at p).neg h) p h
  mul {_ _ i} h := atDims_map1 (g := fun a => a * i) (fun p {_ _} h => (symHom_at p).mul h) p h
  div2 h := atDims_map1 (g := fun a => a / 2) (fun p {_ _} h => (symHom_at p).div2 h) p h
  div3 h := atDims_map1 (g := fun a => a / 3) (fun p {_ _} h => (symHom_at p).div3 h) p h

/-- The first `k` parameters as new base dimensions. -/
def asBase (k : Nat) (d : DimVal (Sym E)) : DimVal ℚ := d.map (Sym.at fun _ => 0) ++ (List.range k).map fun j => DimVal.degree j d

theorem asBase_length (k : Nat) (d : DimVal (Sym E)) : (asBase k d).length = d.length + k := by simp [asBase]

theorem map1_total (g : ℚ → ℚ) (d : DimVal ℚ) : DimVal.map1 (fun a => some (g a)) d = some (d.map g) := by
  induction d with
  | nil => rfl
  | cons a d ih => rw [DimVal.map1, ih]; rfl

theorem map2_total (g : ℚ → ℚ → ℚ) {d e : DimVal ℚ} (h : d.length = e.length) :
    DimVal.map2 (fun a b => some (g a b)) d e = some (List.zipWith g d e) := by
  induction d generalizing e with
  | nil => cases e with
    | nil => rfl
    | cons => simp at h
  | cons a d ih =>
    cases e with
    | nil => simp at h
    | cons b e => rw [DimVal.map2, ih (by simpa using h)]; rfl

theorem map1_asBase {f : Sym E → Option (Sym E)} {g : ℚ → ℚ} (g0 : g 0 = 0) (hfg : ∀ {h : Sym E → ℚ}, SymHom h → ∀ {a c}, f a = some c → h c = g (h a))
    (k : Nat) {d e : DimVal (Sym E)} (h : DimVal.map1 f d = some e) : DimVal.map1 (fun a => some (g a)) (asBase k d) = some (asBase k e) := by
  have h1 : e.map (Sym.at fun _ => 0) = (d.map (Sym.at fun _ => 0)).map g := by
    clear g0
    induction d generalizing e with
    | nil => simp only [DimVal.map1, Option.some.injEq] at h; subst h; rfl
    | cons a d ih =>
      simp only [DimVal.map1, Option.bind_eq_bind, Option.pure_def, Option.bind_eq_some_iff, Option.some.injEq] at h
      obtain ⟨b, hb, e', he, rfl⟩ := h
      rw [List.map_cons, ih he, hfg (symHom_at _) hb]; rfl
  have h2 : ∀ j, DimVal.degree j e = g (DimVal.degree j d) := by
    intro j
    cases d with
    | nil => simp only [DimVal.map1, Option.some.injEq] at h; subst h; exact g0.symm
    | cons a d =>
      simp only [DimVal.map1, Option.bind_eq_bind, Option.pure_def, Option.bind_eq_some_iff, Option.some.injEq] at h
      obtain ⟨b, hb, e', he, rfl⟩ := h
      exact hfg (symHom_degree j) hb
  rw [map1_total, asBase, asBase, h1, List.map_append]
  simp only [h2, List.map_map, Function.comp_def]

theorem map2_asBase {f : Sym E → Sym E → Option (Sym E)} {g : ℚ → ℚ → ℚ} (g0 : g 0 0 = 0)
    (hfg : ∀ {h : Sym E → ℚ}, SymHom h → ∀ {a b c}, f a b = some c → h c = g (h a) (h b))
    (k : Nat) {d d2 e : DimVal (Sym E)} (h : DimVal.map2 f d d2 = some e) :
    DimVal.map2 (fun a b => some (g a b)) (asBase k d) (asBase k d2) = some (asBase k e) := by
  have h1 : d.length = d2.length ∧
      e.map (Sym.at fun _ => 0) = List.zipWith g (d.map (Sym.at fun _ => 0)) (d2.map (Sym.at fun _ => 0)) := by
    clear g0
    induction d generalizing d2 e with
    | nil =>
      cases d2 with
      | nil => simp only [DimVal.map2, Option.some.injEq] at h; subst h; exact ⟨rfl, rfl⟩
      | cons b d2 => simp [DimVal.map2] at h
    | cons a d ih =>
      cases d2 with
      | nil => simp [DimVal.map2] at h
      | cons b d2 =>
        simp only [DimVal.map2, Option.bind_eq_bind, Option.pure_def, Option.bind_eq_some_iff, Option.some.injEq] at h
        obtain ⟨c, hc, e', he, rfl⟩ := h
        obtain ⟨i1, i2⟩ := ih he
        refine ⟨by simp [i1], ?_⟩
        rw [List.map_cons, i2, hfg (symHom_at _) hc]; rfl
  have h2 : ∀ j, DimVal.degree j e = g (DimVal.degree j d) (DimVal.degree j d2) := by
    intro j
    cases d with
    | nil =>
      cases d2 with
      | nil => simp only [DimVal.map2, Option.some.injEq] at h; subst h; exact g0.symm
      | cons b d2 => simp [DimVal.map2] at h
    | cons a d =>
      cases d2 with
      | nil => simp [DimVal.map2] at h
      | cons b d2 =>
        simp only [DimVal.map2, Option.bind_eq_bind, Option.pure_def, Option.bind_eq_some_iff, Option.some.injEq] at h
        obtain ⟨c, hc, e', he, rfl⟩ := h
        exact hfg (symHom_degree j) hc
  rw [map2_total _ (by rw [asBase_length, asBase_length, h1.1]), asBase, asBase, asBase, h1.2,
    List.zipWith_append (by rw [List.length_map, List.length_map, h1.1])]
  simp only [h2, List.zipWith_map, List.zipWith_self]

theorem dimHom_asBase (n k : Nat) : DimHom (E := Sym E) n (n + k) (asBase k) where
  none := by
    have h1 : ∀ j, DimVal.degree j (DimVal.none n : DimVal (Sym E)) = 0 := by
      intro j
      cases n with
      | zero => rfl
      | succ n => exact (symHom_degree (E := E) j).zero
    simp only [asBase, h1]
    simp only [DimVal.none, List.map_replicate, (symHom_at (E := E) _).zero, List.map_const', List.length_range, List.replicate_append_replicate]
    rfl
  add h := map2_asBase (add_zero 0) (fun {_} H {_ _ _} h => H.add h) k h
  sub h := map2_asBase (sub_zero 0) (fun {_} H {_ _ _} h => H.sub h) k h
  neg h := map1_asBase neg_zero (fun {_} H {_ _} h => H.neg h) k h
  mul {_ _ i} h := map1_asBase (g := fun a => a * i) (zero_mul _) (fun {_} H {_ _} h => H.mul h) k h
  div2 h := map1_asBase (g := fun a => a / 2) (zero_div _) (fun {_} H {_ _} h => H.div2 h) k h
  div3 h := map1_asBase (g := fun a => a / 3) (zero_div _) (fun {_} H {_ _} h => H.div3 h) k h

theorem scale_asBase {s c : List ℝ} {d : DimVal (Sym E)} (h : s.length = d.length) :
    DimVal.scale (s ++ c) (asBase c.length d) = d.genericScale s c := by
  unfold DimVal.scale DimVal.genericScale asBase
  have hv : ∀ l : DimVal ℚ, l.vec = l := fun l => List.map_id l
  rw [hv, List.zipWith_append (by rw [h, List.length_map]), List.prod_append]
  congr 1
  · rw [List.zipWith_map_right]
  · congr 1
    refine List.ext_getElem (by simp) fun j h1 h2 => ?_
    simp

theorem genericScale_closed {s c : List ℝ} {d : DimVal E} : d.closed.genericScale s c = d.closed.genericScale s [] := by
  have h1 : ∀ j, DimVal.degree j d.closed = 0 := by intro j; cases d <;> rfl
  unfold DimVal.genericScale
  simp only [h1, List.mapIdx_nil, List.prod_nil]
  congr 1
  refine List.prod_eq_one fun x hx => ?_
  obtain ⟨i, hi, rfl⟩ := List.mem_mapIdx.1 hx
  simp

variable [DecidableEq E]

theorem faithful_hom {n n' : Nat} {Φ : DimVal (Sym E) → DimVal ℚ} (H : DimHom n n' Φ) (hl : ∀ d : DimVal (Sym E), d.length = n → (Φ d).length = n')
    {f : Fn (Sym E)} {tys : List (Ty (Sym E))} (h : GenericCall n f tys) : FaithfulCall n' (f.onDims Φ) (tys.map (Ty.onDims Φ)) := by
  obtain ⟨h1, h2, h3⟩ := h
  have hd : ∀ t : Ty (Sym E), (t.onDims Φ).dim n' = (t.dim n).map Φ := by
    intro t; cases t <;> simp [Ty.onDims, Ty.dim, H.none]
  refine ⟨?_, ?_, ?_⟩
  · cases f
    case valueIn =>
      rcases tys with _ | ⟨a, _ | ⟨b, _ | ⟨c, l⟩⟩⟩ <;> simp only [CheckedCall, Fn.onDims, List.map] at h1 ⊢
      rw [hd, hd, h1]
    all_goals simp only [CheckedCall, Fn.onDims] at h1 ⊢
  · rintro ⟨h4, h5⟩
    refine h2 ⟨by cases f <;> simp_all [Fn.onDims], ?_⟩
    rcases tys with _ | ⟨a, _ | ⟨b, _ | ⟨c, l⟩⟩⟩
    · exact h5
    · cases a <;> exact h5
    · cases a <;> cases b <;> exact h5
    · cases a <;> cases b <;> exact h5
  · cases f <;> simp only [Fn.AnnotWF, Fn.AnnotFields, Fn.onDims] at h3 ⊢ <;> exact ⟨hl _ h3, fun _ _ => trivial⟩

theorem wf_hom {n n' : Nat} {Φ : DimVal (Sym E) → DimVal ℚ} (hl : ∀ d : DimVal (Sym E), d.length = n → (Φ d).length = n')
    {t : Ty (Sym E)} (h : t.HasFields n) : (t.onDims Φ).WF n' := by
  intro d hd
  refine ⟨?_, fun _ _ => trivial⟩
  cases t <;> simp only [Ty.onDims, Ty.dim, Option.some.injEq, reduceCtorEq] at hd <;> subst hd
  · exact hl _ (h _ rfl)
  · simp [DimVal.none]
  · exact hl _ (h _ rfl)
  · exact hl _ (h _ rfl)
end
end Diman
