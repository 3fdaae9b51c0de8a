import Verif.Proofs.RationalBuild
import Verif.Spec.Operators
import Verif.Model.Text
/-! Field operations, operators, functions and text in the build with fractions. -/
set_option linter.unusedSectionVars false
namespace Diman

theorem asRatio_inj {a b : Int} : asRatio a = asRatio b ↔ a = b := by simp [asRatio]
theorem map_asRatio_inj {a b : DimVal Int} : a.map asRatio = b.map asRatio ↔ a = b := by
  constructor
  · exact fun h => List.map_injective_iff.2 (fun _ _ => asRatio_inj.1) h
  · rintro rfl; rfl
theorem map_none (n : Nat) : (DimVal.none n : DimVal Int).map asRatio = DimVal.none n := by
  simp only [DimVal.none, List.map_replicate]; rfl

theorem i64_map {n m : Int} (h : i64 n = some m) : (i64 n).map asRatio = some (asRatio m) := by rw [h]; rfl

theorem map1_asRatio {P : Int → Prop} {f : Int → Option Int} {g : Ratio → Option Ratio} (hfg : ∀ a b, P a → f a = some b → g (asRatio a) = some (asRatio b))
    {d e : DimVal Int} (hd : ∀ a ∈ d, P a) (h : DimVal.map1 f d = some e) : DimVal.map1 g (d.map asRatio) = some (e.map asRatio) := by
  induction d generalizing e with
  | nil => simp only [DimVal.map1, Option.some.injEq] at h; subst h; rfl
  | cons a d ih =>
    simp only [DimVal.map1, Option.bind_eq_bind, Option.pure_def, Option.bind_eq_some_iff, Option.some.injEq] at h
    obtain ⟨b, hb, e', he, rfl⟩ := h
    rw [List.map_cons, DimVal.map1, hfg a b (hd a (by simp)) hb, ih (fun a ha => hd a (by simp [ha])) he]
    rfl

theorem map2_asRatio {P : Int → Prop} {f : Int → Int → Option Int} {g : Ratio → Ratio → Option Ratio}
    (hfg : ∀ a b c, P a → P b → f a b = some c → g (asRatio a) (asRatio b) = some (asRatio c))
    {d d2 e : DimVal Int} (hd : ∀ a ∈ d, P a) (hd2 : ∀ a ∈ d2, P a) (h : DimVal.map2 f d d2 = some e) :
    DimVal.map2 g (d.map asRatio) (d2.map asRatio) = some (e.map asRatio) := by
  induction d generalizing d2 e with
  | nil =>
    cases d2 with
    | nil => simp only [DimVal.map2, Option.some.injEq] at h; subst h; rfl
    | cons b d2 => simp [DimVal.map2] at h
  | cons a d ih =>
    cases d2 with
    | nil => simp [DimVal.map2] at h
    | cons b d2 =>
      simp only [DimVal.map2, Option.bind_eq_bind, Option.pure_def, Option.bind_eq_some_iff, Option.some.injEq] at h
      obtain ⟨c, hc, e', he, rfl⟩ := h
      rw [List.map_cons, List.map_cons, DimVal.map2, hfg a b c (hd a (by simp)) (hd2 b (by simp)) hc,
        ih (fun a ha => hd a (by simp [ha])) (fun a ha => hd2 a (by simp [ha])) he]
      rfl

/-- An exponent that can be negated. -/
def Mod (a : Int) : Prop := -2 ^ 63 < a ∧ a < 2 ^ 63
theorem Mod.isI64 {a : Int} (h : Mod a) : IsI64 a := by unfold Mod at h; unfold IsI64 i64Min i64Max; omega
theorem Mod.fits {a : Int} (h : Mod a) : FitsAbs a := by unfold Mod at h; unfold FitsAbs i64Max; omega
theorem Mod.neg {a : Int} (h : Mod a) : Mod (-a) := by unfold Mod at *; omega

theorem add_asRatio {a b c : Int} (ha : IsI64 a) (hb : IsI64 b) (h : FieldOps.add a b = some c) : FieldOps.add (asRatio a) (asRatio b) = some (asRatio c) :=
  (ratio_add ha hb).trans (i64_map h)
theorem sub_asRatio {a b c : Int} (ha : IsI64 a) (hb : Mod b) (h : FieldOps.sub a b = some c) : FieldOps.sub (asRatio a) (asRatio b) = some (asRatio c) := by
  show Ratio.sub _ _ = _
  unfold Ratio.sub
  rw [ratio_neg, i64_of hb.neg.isI64]
  exact (ratio_add ha hb.neg.isI64).trans (i64_map (show i64 (a + -b) = some c from h))
theorem neg_asRatio {a c : Int} (h : FieldOps.neg a = some c) : FieldOps.neg (asRatio a) = some (asRatio c) :=
  ratio_neg.trans (i64_map h)
theorem mul_asRatio {a n c : Int} (h : FieldOps.mul a n = some c) : FieldOps.mul (asRatio a) n = some (asRatio c) :=
  (ratio_mul (b := n)).trans (i64_map h)
theorem new_div {a k : Int} (ha : Mod a) (hk : 0 < k) (hk' : Mod k) (h : a.tmod k = 0) : Ratio.new a k = some (asRatio (a.tdiv k)) := by
  obtain ⟨r, hr⟩ := Ratio.new_isSome ha.fits hk'.fits (Or.inr (by omega))
  rw [hr]
  congr 1
  refine Ratio.canonical_ext (Ratio.new_pos hr hk) ⟨Int.one_pos, by simp [asRatio]⟩ ?_
  rw [Ratio.new_val hr]
  have h2 : a = k * a.tdiv k := by have := Int.mul_tdiv_add_tmod a k; omega
  have h3 : (a : ℚ) = k * (a.tdiv k : Int) := by exact_mod_cast h2
  have h4 : (k : ℚ) ≠ 0 := by exact_mod_cast (by omega : k ≠ 0)
  rw [h3]
  simp only [Ratio.val, asRatio, Int.cast_one, div_one]
  field_simp
theorem div2_asRatio {a c : Int} (ha : Mod a) (h : FieldOps.div2 a = some c) : FieldOps.div2 (asRatio a) = some (asRatio c) := by
  simp only [FieldOps.div2] at h ⊢
  split at h
  · simp at h
  · rename_i h'
    simp only [Option.some.injEq] at h
    subst h
    have : Ratio.div (asRatio a) (Ratio.int 2) = Ratio.new a 2 := by
      simp only [Ratio.div, Ratio.mul, Ratio.inv, Ratio.int, asRatio, Int.mul_one, Int.one_mul, Option.bind_eq_bind, i64_of ha.isI64,
        Option.bind_some, i64_of (show IsI64 2 by decide)]
    rw [this]
    exact new_div ha (by decide) (by unfold Mod; decide) (by simpa using h')
theorem div3_asRatio {a c : Int} (ha : Mod a) (h : FieldOps.div3 a = some c) : FieldOps.div3 (asRatio a) = some (asRatio c) := by
  simp only [FieldOps.div3] at h ⊢
  split at h
  · simp at h
  · rename_i h'
    simp only [Option.some.injEq] at h
    subst h
    have : Ratio.div (asRatio a) (Ratio.int 3) = Ratio.new a 3 := by
      simp only [Ratio.div, Ratio.mul, Ratio.inv, Ratio.int, asRatio, Int.mul_one, Int.one_mul, Option.bind_eq_bind, i64_of ha.isI64,
        Option.bind_some, i64_of (show IsI64 3 by decide)]
    rw [this]
    exact new_div ha (by decide) (by unfold Mod; decide) (by simpa using h')

section
variable {d d2 e : DimVal Int}
theorem dadd_asRatio (hd : ∀ a ∈ d, Mod a) (hd2 : ∀ a ∈ d2, Mod a) (h : d.add d2 = some e) : DimVal.add (d.map asRatio) (d2.map asRatio) = some (e.map asRatio) :=
  map2_asRatio (P := Mod) (fun _ _ _ ha hb h => add_asRatio ha.isI64 hb.isI64 h) hd hd2 h
theorem dsub_asRatio (hd : ∀ a ∈ d, Mod a) (hd2 : ∀ a ∈ d2, Mod a) (h : d.sub d2 = some e) : DimVal.sub (d.map asRatio) (d2.map asRatio) = some (e.map asRatio) :=
  map2_asRatio (P := Mod) (fun _ _ _ ha hb h => sub_asRatio ha.isI64 hb h) hd hd2 h
theorem dneg_asRatio (h : d.neg = some e) : DimVal.neg (d.map asRatio) = some (e.map asRatio) :=
  map1_asRatio (P := fun _ => True) (fun _ _ _ h => neg_asRatio h) (fun _ _ => trivial) h
theorem dmul_asRatio {n : Int} (h : d.mul n = some e) : DimVal.mul (d.map asRatio) n = some (e.map asRatio) :=
  map1_asRatio (P := fun _ => True) (fun _ _ _ h => mul_asRatio h) (fun _ _ => trivial) h
theorem ddiv2_asRatio (hd : ∀ a ∈ d, Mod a) (h : d.div2 = some e) : DimVal.div2 (d.map asRatio) = some (e.map asRatio) :=
  map1_asRatio (P := Mod) (fun _ _ ha h => div2_asRatio ha h) hd h
theorem ddiv3_asRatio (hd : ∀ a ∈ d, Mod a) (h : d.div3 = some e) : DimVal.div3 (d.map asRatio) = some (e.map asRatio) :=
  map1_asRatio (P := Mod) (fun _ _ ha h => div3_asRatio ha h) hd h
end

/-! ### Operators -/

theorem exists_asRatio {ss : List Storage} {n : Nat} {t : Trait} {l r : OpTy Int} {out : OpOut Int} (hl : l.ty.Moderate) (hr : r.ty.Moderate)
    (h : OperatorExists ss n t l r out) : OperatorExists ss n t l.asRatio r.asRatio out.asRatio := by
  obtain ⟨lr, lt⟩ := l
  obtain ⟨rr, rt⟩ := r
  cases lt <;> cases rt <;> try exact absurd h id
  · rename_i sl dl sr dr
    obtain ⟨s, hs, h⟩ := h
    refine ⟨s, hs, ?_⟩
    cases t
    case mul => obtain ⟨h1, d, h2, rfl⟩ := h; exact ⟨h1, _, dadd_asRatio hl hr h2, rfl⟩
    case div => obtain ⟨h1, d, h2, rfl⟩ := h; exact ⟨h1, _, dsub_asRatio hl hr h2, rfl⟩
    case mulAssign | divAssign => obtain ⟨h1, rfl, rfl⟩ := h; exact ⟨h1, map_none n, rfl⟩
    all_goals obtain ⟨h1, rfl, rfl⟩ := h; exact ⟨h1, rfl, rfl⟩
  · rename_i sl dl sr
    obtain ⟨s, hs, h⟩ := h
    refine ⟨s, hs, ?_⟩
    cases t
    case mul | div => obtain ⟨h1, h2, rfl⟩ := h; exact ⟨h1, h2, rfl⟩
    case mulAssign | divAssign => exact ⟨h.1, h.2.1, h.2.2.1, by rw [h.2.2.2]; rfl⟩
    all_goals exact ⟨h.1, h.2.1, by rw [h.2.2.1]; exact map_none n, by rw [h.2.2.2]; rfl⟩
  · rename_i sl sr dr
    obtain ⟨s, hs, h0, h⟩ := h
    refine ⟨s, hs, h0, ?_⟩
    cases t
    case mul => obtain ⟨h1, rfl⟩ := h; exact ⟨h1, rfl⟩
    case div => obtain ⟨h1, d, h2, rfl⟩ := h; exact ⟨h1, _, dneg_asRatio h2, rfl⟩
    case partialEq | partialOrd => exact ⟨h.1, by rw [h.2.1]; exact map_none n, by rw [h.2.2]; rfl⟩
    all_goals exact ⟨h.1, h.2.1, by rw [h.2.2.1]; exact map_none n, by rw [h.2.2.2]; rfl⟩

/-! ### Functions -/

theorem asRatio_ty_inj {a b : Ty Int} : a.asRatio = b.asRatio ↔ a = b := by
  cases a <;> cases b <;> simp [Ty.asRatio, map_asRatio_inj]
theorem none_iff {n : Nat} {d : DimVal Int} : d.map asRatio = DimVal.none n ↔ d = DimVal.none n := by
  rw [← map_none, map_asRatio_inj]
theorem intoQuantityOk_asRatio (n : Nat) (s : Storage) (d : DimVal Int) (t : Ty Int) :
    intoQuantityOk n s (d.map asRatio) t.asRatio = intoQuantityOk n s d t := by
  cases t <;> simp [intoQuantityOk, Ty.asRatio, map_asRatio_inj, none_iff]
theorem body_asRatio {K M : Type} [Prims K M] (s : Storage) (f : Fn Int) (vs : List (Val K M)) : f.asRatio.body s vs = f.body s vs := by
  cases f <;> rfl
theorem storageOf_asRatio (tys : List (Ty Int)) : storageOf (tys.map Ty.asRatio) = storageOf tys := by
  induction tys with
  | nil => rfl
  | cons t l ih => cases t <;> simp_all [storageOf, Ty.asRatio]

theorem Moderate.q {s : Storage} {d : DimVal Int} (h : (Ty.quantity s d).Moderate) : ∀ a ∈ d, Mod a := h
theorem Moderate.u {d : DimVal Int} (h : (Ty.unit d).Moderate) : ∀ a ∈ d, Mod a := h
theorem Moderate.r {d : DimVal Int} (h : (Ty.runtimeUnit d).Moderate) : ∀ a ∈ d, Mod a := h

theorem map_ty {o : Option (DimVal Int)} {o' : Option (DimVal Ratio)} {f : DimVal Int → Ty Int} {g : DimVal Ratio → Ty Ratio} {t : Ty Int}
    (hg : ∀ e, (f e).asRatio = g (e.map asRatio)) (ho : ∀ e, o = some e → o' = some (e.map asRatio)) (h : o.map f = some t) : o'.map g = some t.asRatio := by
  obtain ⟨e, he, rfl⟩ := Option.map_eq_some_iff.1 h
  rw [ho e he, Option.map_some, hg]

theorem sig_asRatio {n : Nat} {f : Fn Int} {args : List (Ty Int)} {t : Ty Int} (ha : ∀ a ∈ args, a.Moderate) (h : f.sig n args = some t) :
    f.asRatio.sig n (args.map Ty.asRatio) = some t.asRatio := by
  cases f
  case sum s d =>
    simp only [Fn.sig] at h
    split at h
    · rename_i hall
      cases h
      simp only [Fn.asRatio, Fn.sig]
      rw [if_pos]
      · rfl
      · simp only [List.all_map, List.all_eq_true, decide_eq_true_eq, Function.comp_apply] at hall ⊢
        intro x hx; rw [hall x hx]; rfl
    · simp at h
  all_goals rcases args with _ | ⟨a, _ | ⟨b, _ | ⟨c, _ | ⟨_, _⟩⟩⟩⟩
  all_goals try (first | (simp [Fn.sig] at h; done) | (cases a <;> simp [Fn.sig] at h; done))
  case default.nil | zero.nil => cases h; rfl
  all_goals cases a <;> try (simp [Fn.sig] at h; done)
  case min.cons.cons.nil.quantity | max.cons.cons.nil.quantity =>
    rename_i s d
    have hq : (b.asRatio = .quantity s (d.map asRatio)) ↔ b = .quantity s d := asRatio_ty_inj (b := .quantity s d)
    simp only [Fn.sig] at h
    simp only [Fn.asRatio, Fn.sig, List.map, Ty.asRatio.eq_1, intoQuantityOk_asRatio, hq]
    split at h <;> rename_i h1 <;> simp only [h1] at h ⊢ <;> split at h <;> rename_i h2 <;> cases h
    all_goals simp [h2, Ty.asRatio]
  case clamp.cons.cons.cons.nil.quantity =>
    simp only [Fn.sig] at h
    simp only [Fn.asRatio, Fn.sig, List.map, Ty.asRatio.eq_1, intoQuantityOk_asRatio, asRatio_ty_inj]
    split at h <;> rename_i h1 <;> cases h
    rw [if_pos h1]; rfl
  all_goals try (cases b <;> try (simp [Fn.sig] at h; done))
  all_goals try (cases c <;> try (simp [Fn.sig] at h; done))
  all_goals simp only [Fn.sig] at h
  all_goals simp only [Fn.asRatio, Fn.sig, List.map, Ty.asRatio, none_iff, map_asRatio_inj]
  all_goals try (cases h; simp [map_none]; done)
  all_goals try (split at h <;> rename_i h1 <;> first | (cases h; done) | rw [if_pos h1])
  all_goals try (cases h; simp [map_none]; done)
  all_goals refine map_ty (fun _ => by rfl) (fun e he => ?_) h
  all_goals first
    | exact dmul_asRatio he
    | exact ddiv2_asRatio (ha _ List.mem_cons_self) he
    | exact ddiv3_asRatio (ha _ List.mem_cons_self) he
    | exact dadd_asRatio (ha _ List.mem_cons_self) (ha _ (List.mem_cons_of_mem _ List.mem_cons_self)) he
    | exact dsub_asRatio (ha _ List.mem_cons_self) (ha _ (List.mem_cons_of_mem _ List.mem_cons_self)) he

end Diman
