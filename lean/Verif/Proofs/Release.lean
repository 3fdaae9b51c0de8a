import Verif.Spec.Release
import Verif.Proofs.ExpLift
import Verif.Proofs.RationalText
/-! Exponent types of which one panics less: the API and the text. -/
set_option linter.unusedSectionVars false
set_option linter.unusedVariables false
namespace Diman

/-- A change of exponent type that respects the arithmetic of the generated dimension type where it does not panic. -/
class FieldLift {E E' : Type} [FieldOps E] [FieldOps E'] (ψ : E → E') : Prop where
  inj : ∀ a b, ψ a = ψ b → a = b
  entry : ∀ a c, FieldOps.entry a = some c → FieldOps.entry (ψ a) = some (ψ c)
  zero : ψ FieldOps.zero = FieldOps.zero
  add : ∀ a b c, FieldOps.add a b = some c → FieldOps.add (ψ a) (ψ b) = some (ψ c)
  sub : ∀ a b c, FieldOps.sub a b = some c → FieldOps.sub (ψ a) (ψ b) = some (ψ c)
  neg : ∀ a c, FieldOps.neg a = some c → FieldOps.neg (ψ a) = some (ψ c)
  mul : ∀ a (n : Int) c, FieldOps.mul a n = some c → FieldOps.mul (ψ a) n = some (ψ c)
  div2 : ∀ a c, FieldOps.div2 a = some c → FieldOps.div2 (ψ a) = some (ψ c)
  div3 : ∀ a c, FieldOps.div3 a = some c → FieldOps.div3 (ψ a) = some (ψ c)

/-! ### The two changes of profile -/

theorem wrap64_of {x y : Int} (h : i64 x = some y) : y = x ∧ wrap64 x = x := by
  unfold i64 i64Min i64Max at h
  split at h
  · rename_i hx
    simp only [Option.some.injEq] at h
    refine ⟨h.symm, ?_⟩
    unfold wrap64; omega
  · simp at h

theorem relNew_lift {n d : Int} {r : Ratio} (h : Ratio.new n d = some r) : RelRatio.new n d = some r.asRelease := by
  unfold Ratio.new at h
  simp only [Option.bind_eq_bind, Option.bind_eq_some_iff, Option.pure_def, Option.some.injEq] at h
  obtain ⟨g, hg, a, ha, b, hb, rfl⟩ := h
  unfold gcd at hg
  simp only [Option.bind_eq_bind, Option.bind_eq_some_iff] at hg
  obtain ⟨q, hq, hg⟩ := hg
  obtain ⟨rfl, hw⟩ := wrap64_of hg
  unfold RelRatio.new RelRatio.gcd
  simp only [Option.bind_eq_bind, hq, Option.bind_some, Option.pure_def, hw, ha, hb]
  rfl

theorem relAdd_lift {a b c : Ratio} (h : Ratio.add a b = some c) : RelRatio.add a.asRelease b.asRelease = some c.asRelease := by
  unfold Ratio.add at h
  simp only [Option.bind_eq_bind, Option.bind_eq_some_iff] at h
  obtain ⟨x, hx, y, hy, n, hn, d, hd, h⟩ := h
  obtain ⟨rfl, wx⟩ := wrap64_of hx
  obtain ⟨rfl, wy⟩ := wrap64_of hy
  obtain ⟨rfl, wn⟩ := wrap64_of hn
  obtain ⟨rfl, wd⟩ := wrap64_of hd
  unfold RelRatio.add
  simp only [Ratio.asRelease, wx, wy, wn, wd]
  exact relNew_lift h
theorem relNeg_lift {a c : Ratio} (h : Ratio.neg a = some c) : a.asRelease.neg = c.asRelease := by
  unfold Ratio.neg at h
  simp only [Option.bind_eq_bind, Option.bind_eq_some_iff, Option.pure_def, Option.some.injEq] at h
  obtain ⟨x, hx, rfl⟩ := h
  obtain ⟨rfl, wx⟩ := wrap64_of hx
  simp only [RelRatio.neg, Ratio.asRelease, wx]
theorem relMul_lift {a b c : Ratio} (h : Ratio.mul a b = some c) : RelRatio.mul a.asRelease b.asRelease = some c.asRelease := by
  unfold Ratio.mul at h
  simp only [Option.bind_eq_bind, Option.bind_eq_some_iff] at h
  obtain ⟨n, hn, d, hd, h⟩ := h
  obtain ⟨rfl, wn⟩ := wrap64_of hn
  obtain ⟨rfl, wd⟩ := wrap64_of hd
  unfold RelRatio.mul
  simp only [Ratio.asRelease, wn, wd]
  exact relNew_lift h
theorem relSub_lift {a b c : Ratio} (h : Ratio.sub a b = some c) : RelRatio.sub a.asRelease b.asRelease = some c.asRelease := by
  unfold Ratio.sub at h
  simp only [Option.bind_eq_bind, Option.bind_eq_some_iff] at h
  obtain ⟨x, hx, h⟩ := h
  unfold RelRatio.sub
  rw [relNeg_lift hx]
  exact relAdd_lift h
theorem relDiv_lift {a b c : Ratio} (h : Ratio.div a b = some c) : RelRatio.div a.asRelease b.asRelease = some c.asRelease := relMul_lift (b := b.inv) h
theorem asRelease_ratio_inj {a b : Ratio} (h : a.asRelease = b.asRelease) : a = b := by
  cases a; cases b; simpa [Ratio.asRelease] using h
theorem asRelease_inj {a b : Int} (h : asRelease a = asRelease b) : a = b := by simpa [asRelease] using h

theorem some_wrap {x y : Int} (h : i64 x = some y) : some (⟨wrap64 x⟩ : RelInt) = some (asRelease y) := by
  obtain ⟨rfl, w⟩ := wrap64_of h
  rw [w]; rfl

instance : ExpLift asRelease where
  inj _ _ := asRelease_inj
  one := rfl
  add _ _ _ h := some_wrap h
  mul _ _ _ h := some_wrap h
  neg _ _ h := some_wrap h

instance : FieldLift asRelease where
  inj _ _ := asRelease_inj
  entry a c h := by cases h; rfl
  zero := rfl
  add _ _ _ h := some_wrap h
  sub _ _ _ h := some_wrap h
  neg _ _ h := some_wrap h
  mul _ _ _ h := some_wrap h
  div2 a c h := by
    simp only [FieldOps.div2] at h
    split at h
    · simp at h
    · rename_i h'
      cases h
      show (if a.tmod 2 ≠ 0 then none else some (⟨a.tdiv 2⟩ : RelInt)) = _
      rw [if_neg h']; rfl
  div3 a c h := by
    simp only [FieldOps.div3] at h
    split at h
    · simp at h
    · rename_i h'
      cases h
      show (if a.tmod 3 ≠ 0 then none else some (⟨a.tdiv 3⟩ : RelInt)) = _
      rw [if_neg h']; rfl

instance : ExpLift Ratio.asRelease where
  inj _ _ := asRelease_ratio_inj
  one := rfl
  add _ _ _ h := relAdd_lift h
  mul _ _ _ h := relMul_lift h
  neg _ _ h := congrArg some (relNeg_lift h)

instance : FieldLift Ratio.asRelease where
  inj _ _ := asRelease_ratio_inj
  entry _ _ h := relNew_lift h
  zero := rfl
  add _ _ _ h := relAdd_lift h
  sub _ _ _ h := relSub_lift h
  neg _ _ h := congrArg some (relNeg_lift h)
  mul a n c h := relMul_lift (a := a) (b := Ratio.int n) (c := c) h
  div2 a c h := relDiv_lift (a := a) (b := Ratio.int 2) (c := c) h
  div3 a c h := relDiv_lift (a := a) (b := Ratio.int 3) (c := c) h

theorem read_rel {x : ExpSyn} {n : Int} (h : ReadExponent.read x = some n) : ReadExponent.read x = some (asRelease n) := by
  simp only [ReadExponent.read, Option.some.injEq] at h ⊢
  subst h; rfl
theorem read_relRatio {x : ExpSyn} {n : Ratio} (h : ReadExponent.read x = some n) : ReadExponent.read x = some n.asRelease := relNew_lift h

/-! ### The API -/

section
variable {E E' : Type} [FieldOps E] [FieldOps E'] {ψ : E → E'} [FieldLift ψ]

theorem carry_dims_inj {a b : DimVal E} : a.map ψ = b.map ψ ↔ a = b :=
  ⟨fun h => List.map_injective_iff.2 (fun _ _ => FieldLift.inj (ψ := ψ) _ _) h, fun h => by rw [h]⟩
theorem carry_none (n : Nat) : (DimVal.none n : DimVal E).map ψ = DimVal.none n := by
  simp only [DimVal.none, List.map_replicate, FieldLift.zero]
theorem carry_none_iff {n : Nat} {d : DimVal E} : d.map ψ = DimVal.none n ↔ d = DimVal.none n := by
  rw [← carry_none (ψ := ψ), carry_dims_inj]

theorem map1_lift {f : E → Option E} {g : E' → Option E'} (hfg : ∀ a b, f a = some b → g (ψ a) = some (ψ b))
    {d e : DimVal E} (h : DimVal.map1 f d = some e) : DimVal.map1 g (d.map ψ) = some (e.map ψ) := by
  induction d generalizing e with
  | nil => simp only [DimVal.map1, Option.some.injEq] at h; subst h; rfl
  | cons a d ih =>
    simp only [DimVal.map1, Option.bind_eq_bind, Option.pure_def, Option.bind_eq_some_iff, Option.some.injEq] at h
    obtain ⟨b, hb, e', he, rfl⟩ := h
    rw [List.map_cons, DimVal.map1, hfg a b hb, ih he]
    rfl
theorem map2_lift {f : E → E → Option E} {g : E' → E' → Option E'} (hfg : ∀ a b c, f a b = some c → g (ψ a) (ψ b) = some (ψ c))
    {d d2 e : DimVal E} (h : DimVal.map2 f d d2 = some e) : DimVal.map2 g (d.map ψ) (d2.map ψ) = some (e.map ψ) := by
  induction d generalizing d2 e with
  | nil =>
    cases d2 with
    | nil => simp only [DimVal.map2, Option.some.injEq] at h; subst h; rfl
    | cons b d2 => simp [DimVal.map2] at h
  | cons a d ih =>
    cases d2 with
    | nil => simp [DimVal.map2] at h
    | cons b d2 =>
      simp only [DimVal.map2, Option.bind_eq_bind, Option.pure_def, Option.bind_eq_some_iff, Option.some.injEq] at h
      obtain ⟨c, hc, e', he, rfl⟩ := h
      rw [List.map_cons, List.map_cons, DimVal.map2, hfg a b c hc, ih he]
      rfl

variable {d d2 e : DimVal E}
theorem dadd_lift (h : d.add d2 = some e) : DimVal.add (d.map ψ) (d2.map ψ) = some (e.map ψ) := map2_lift FieldLift.add h
theorem dsub_lift (h : d.sub d2 = some e) : DimVal.sub (d.map ψ) (d2.map ψ) = some (e.map ψ) := map2_lift FieldLift.sub h
theorem dneg_lift (h : d.neg = some e) : DimVal.neg (d.map ψ) = some (e.map ψ) := map1_lift FieldLift.neg h
theorem dmul_lift {n : Int} (h : d.mul n = some e) : DimVal.mul (d.map ψ) n = some (e.map ψ) := map1_lift (fun a c h => FieldLift.mul (ψ := ψ) a n c h) h
theorem ddiv2_lift (h : d.div2 = some e) : DimVal.div2 (d.map ψ) = some (e.map ψ) := map1_lift FieldLift.div2 h
theorem ddiv3_lift (h : d.div3 = some e) : DimVal.div3 (d.map ψ) = some (e.map ψ) := map1_lift FieldLift.div3 h

theorem exists_carry {ss : List Storage} {n : Nat} {t : Trait} {l r : OpTy E} {out : OpOut E}
    (h : OperatorExists ss n t l r out) : OperatorExists ss n t (l.carry ψ) (r.carry ψ) (out.carry ψ) := by
  obtain ⟨lr, lt⟩ := l
  obtain ⟨rr, rt⟩ := r
  cases lt <;> cases rt <;> try exact absurd h id
  · rename_i sl dl sr dr
    obtain ⟨s, hs, h⟩ := h
    refine ⟨s, hs, ?_⟩
    cases t
    case mul => obtain ⟨h1, d, h2, rfl⟩ := h; exact ⟨h1, _, dadd_lift h2, rfl⟩
    case div => obtain ⟨h1, d, h2, rfl⟩ := h; exact ⟨h1, _, dsub_lift h2, rfl⟩
    case mulAssign | divAssign => obtain ⟨h1, rfl, rfl⟩ := h; exact ⟨h1, carry_none n, rfl⟩
    all_goals obtain ⟨h1, rfl, rfl⟩ := h; exact ⟨h1, rfl, rfl⟩
  · rename_i sl dl sr
    obtain ⟨s, hs, h⟩ := h
    refine ⟨s, hs, ?_⟩
    cases t
    case mul | div => obtain ⟨h1, h2, rfl⟩ := h; exact ⟨h1, h2, rfl⟩
    case mulAssign | divAssign => exact ⟨h.1, h.2.1, h.2.2.1, by rw [h.2.2.2]; rfl⟩
    all_goals exact ⟨h.1, h.2.1, by rw [h.2.2.1]; exact carry_none n, by rw [h.2.2.2]; rfl⟩
  · rename_i sl sr dr
    obtain ⟨s, hs, h0, h⟩ := h
    refine ⟨s, hs, h0, ?_⟩
    cases t
    case mul => obtain ⟨h1, rfl⟩ := h; exact ⟨h1, rfl⟩
    case div => obtain ⟨h1, d, h2, rfl⟩ := h; exact ⟨h1, _, dneg_lift h2, rfl⟩
    case partialEq | partialOrd => exact ⟨h.1, by rw [h.2.1]; exact carry_none n, by rw [h.2.2]; rfl⟩
    all_goals exact ⟨h.1, h.2.1, by rw [h.2.2.1]; exact carry_none n, by rw [h.2.2.2]; rfl⟩

variable [DecidableEq E] [DecidableEq E']

theorem carry_ty_inj {a b : Ty E} : a.carry ψ = b.carry ψ ↔ a = b := by
  cases a <;> cases b <;> simp [Ty.carry, carry_dims_inj]
theorem intoQuantityOk_carry (n : Nat) (s : Storage) (d : DimVal E) (t : Ty E) :
    intoQuantityOk n s (d.map ψ) (t.carry ψ) = intoQuantityOk n s d t := by
  cases t <;> simp [intoQuantityOk, Ty.carry, carry_dims_inj, carry_none_iff]
theorem body_carry {K M : Type} [Prims K M] (s : Storage) (f : Fn E) (vs : List (Val K M)) : (f.carry ψ).body s vs = f.body s vs := by
  cases f <;> rfl
theorem storageOf_carry (tys : List (Ty E)) : storageOf (tys.map (Ty.carry ψ)) = storageOf tys := by
  induction tys with
  | nil => rfl
  | cons t l ih => cases t <;> simp_all [storageOf, Ty.carry]

theorem map_ty_carry {o : Option (DimVal E)} {o' : Option (DimVal E')} {f : DimVal E → Ty E} {g : DimVal E' → Ty E'} {t : Ty E}
    (hg : ∀ e, (f e).carry ψ = g (e.map ψ)) (ho : ∀ e, o = some e → o' = some (e.map ψ)) (h : o.map f = some t) : o'.map g = some (t.carry ψ) := by
  obtain ⟨e, he, rfl⟩ := Option.map_eq_some_iff.1 h
  rw [ho e he, Option.map_some, hg]

theorem sig_carry {n : Nat} {f : Fn E} {args : List (Ty E)} {t : Ty E} (h : f.sig n args = some t) :
    (f.carry ψ).sig n (args.map (Ty.carry ψ)) = some (t.carry ψ) := by
  cases f
  case sum s d =>
    simp only [Fn.sig] at h
    split at h
    · rename_i hall
      cases h
      simp only [Fn.carry, Fn.sig]
      rw [if_pos]
      · rfl
      · simp only [List.all_map, List.all_eq_true, decide_eq_true_eq, Function.comp_apply] at hall ⊢
        intro x hx; rw [hall x hx]; rfl
    · simp at h
  all_goals rcases args with _ | ⟨a, _ | ⟨b, _ | ⟨c, _ | ⟨_, _⟩⟩⟩⟩
  all_goals try (first | (simp [Fn.sig] at h; done) | (cases a <;> simp [Fn.sig] at h; done))
  case default.nil | zero.nil => cases h; rfl
  all_goals cases a <;> try (simp [Fn.sig] at h; done)
  case min.cons.cons.nil.quantity | max.cons.cons.nil.quantity =>
    rename_i s d
    have hq : (b.carry ψ = .quantity s (d.map ψ)) ↔ b = .quantity s d := carry_ty_inj (b := .quantity s d)
    simp only [Fn.sig] at h
    simp only [Fn.carry, Fn.sig, List.map, Ty.carry.eq_1, intoQuantityOk_carry, hq]
    split at h <;> rename_i h1 <;> simp only [h1] at h ⊢ <;> split at h <;> rename_i h2 <;> cases h
    all_goals simp [h2, Ty.carry]
  case clamp.cons.cons.cons.nil.quantity =>
    simp only [Fn.sig] at h
    simp only [Fn.carry, Fn.sig, List.map, Ty.carry.eq_1, intoQuantityOk_carry, carry_ty_inj]
    split at h <;> rename_i h1 <;> cases h
    rw [if_pos h1]; rfl
  all_goals try (cases b <;> try (simp [Fn.sig] at h; done))
  all_goals try (cases c <;> try (simp [Fn.sig] at h; done))
  all_goals simp only [Fn.sig] at h
  all_goals simp only [Fn.carry, Fn.sig, List.map, Ty.carry, carry_none_iff, carry_dims_inj]
  all_goals try (cases h; simp [carry_none]; done)
  all_goals try (split at h <;> rename_i h1 <;> first | (cases h; done) | rw [if_pos h1])
  all_goals try (cases h; simp [carry_none]; done)
  all_goals refine map_ty_carry (fun _ => by rfl) (fun e he => ?_) h
  all_goals first
    | exact dmul_lift he
    | exact ddiv2_lift he
    | exact ddiv3_lift he
    | exact dadd_lift he
    | exact dsub_lift he
end

end Diman
