import Verif.Spec.Program
import Verif.Proofs.Api
/-!
# Scaling lemmas for C21
-/
set_option linter.unusedSectionVars false
set_option linter.unusedSimpArgs false
set_option linter.unnecessarySimpa false
set_option linter.unusedTactic false
set_option linter.unreachableTactic false
namespace Diman
open LawfulExponent

/-! ## The scale of a dimension -/

theorem sc_pos {s : List ℝ} (hs : ∀ x ∈ s, 0 < x) (v : List ℚ) : 0 < (List.zipWith (fun (x : ℝ) (q : ℚ) => x ^ (q : ℝ)) s v).prod := by
  induction s generalizing v with
  | nil => simp
  | cons x s ih =>
    cases v with
    | nil => simp
    | cons q v =>
      simp only [List.zipWith_cons_cons, List.prod_cons]
      exact mul_pos (Real.rpow_pos_of_pos (hs x (by simp)) _) (ih (fun y hy => hs y (by simp [hy])) v)

theorem sc_zero (s : List ℝ) (n : Nat) : (List.zipWith (fun (x : ℝ) (q : ℚ) => x ^ (q : ℝ)) s (List.replicate n 0)).prod = 1 := by
  induction s generalizing n with
  | nil => simp
  | cons x s ih =>
    cases n with
    | zero => simp
    | succ n => simp [List.replicate_succ, ih]

theorem sc_add {s : List ℝ} (hs : ∀ x ∈ s, 0 < x) {v w : List ℚ} (h : v.length = w.length) :
    (List.zipWith (fun (x : ℝ) (q : ℚ) => x ^ (q : ℝ)) s (List.zipWith (· + ·) v w)).prod =
      (List.zipWith (fun (x : ℝ) (q : ℚ) => x ^ (q : ℝ)) s v).prod * (List.zipWith (fun (x : ℝ) (q : ℚ) => x ^ (q : ℝ)) s w).prod := by
  induction s generalizing v w with
  | nil => simp
  | cons x s ih =>
    cases v with
    | nil => cases w <;> simp at h ⊢
    | cons q v =>
      cases w with
      | nil => simp at h
      | cons r w =>
        simp only [List.zipWith_cons_cons, List.prod_cons, Rat.cast_add]
        rw [Real.rpow_add (hs x (by simp)), ih (fun y hy => hs y (by simp [hy])) (by simpa using h)]
        ring

theorem sc_mul {s : List ℝ} (hs : ∀ x ∈ s, 0 < x) (v : List ℚ) (c : ℚ) :
    (List.zipWith (fun (x : ℝ) (q : ℚ) => x ^ (q : ℝ)) s (v.map (· * c))).prod =
      (List.zipWith (fun (x : ℝ) (q : ℚ) => x ^ (q : ℝ)) s v).prod ^ (c : ℝ) := by
  induction s generalizing v with
  | nil => simp
  | cons x s ih =>
    cases v with
    | nil => simp
    | cons q v =>
      simp only [List.map_cons, List.zipWith_cons_cons, List.prod_cons, Rat.cast_mul]
      have hx := hs x (by simp)
      have hs' : ∀ y ∈ s, 0 < y := fun y hy => hs y (by simp [hy])
      rw [Real.mul_rpow (Real.rpow_pos_of_pos hx _).le (sc_pos hs' v).le, ih hs', Real.rpow_mul hx.le]

section
variable {E : Type} [Exponent E] [LawfulExponent E] [FieldOps E] [LawfulFieldOps E]

theorem DimVal.scale_pos {s : List ℝ} (hs : ∀ x ∈ s, 0 < x) (d : DimVal E) : 0 < DimVal.scale s d := sc_pos hs _
theorem DimVal.scale_none (s : List ℝ) (n : Nat) : DimVal.scale s (DimVal.none n : DimVal E) = 1 := by
  unfold DimVal.scale; rw [DimVal.none_vec, sc_zero]

theorem DimVal.scale_add {s : List ℝ} (hs : ∀ x ∈ s, 0 < x) {a b c : DimVal E} (ha : a.Canonical) (hb : b.Canonical)
    (h : DimVal.add a b = some c) : DimVal.scale s c = DimVal.scale s a * DimVal.scale s b := by
  obtain ⟨-, h1, h2, -⟩ := DimVal.add_spec ha hb h
  unfold DimVal.scale
  rw [h1, sc_add hs (by rw [DimVal.vec_length, DimVal.vec_length, h2])]

theorem DimVal.scale_mul {s : List ℝ} (hs : ∀ x ∈ s, 0 < x) {a c : DimVal E} {k : Int} (ha : a.Canonical)
    (h : DimVal.mul a k = some c) : DimVal.scale s c = DimVal.scale s a ^ k := by
  obtain ⟨-, h1⟩ := DimVal.mul_spec ha h
  unfold DimVal.scale
  rw [h1, sc_mul hs]; push_cast; rw [Real.rpow_intCast]

theorem DimVal.scale_neg {s : List ℝ} (hs : ∀ x ∈ s, 0 < x) {a c : DimVal E} (ha : a.Canonical)
    (h : DimVal.neg a = some c) : DimVal.scale s c = (DimVal.scale s a)⁻¹ := by
  obtain ⟨-, h1⟩ := DimVal.neg_spec ha h
  unfold DimVal.scale
  have e : a.vec.map (- ·) = a.vec.map (· * (-1 : ℚ)) := by simp
  rw [h1, e, sc_mul hs]; push_cast; rw [Real.rpow_neg_one]

theorem DimVal.scale_sub {s : List ℝ} (hs : ∀ x ∈ s, 0 < x) {a b c : DimVal E} (ha : a.Canonical) (hb : b.Canonical)
    (h : DimVal.sub a b = some c) : DimVal.scale s c = DimVal.scale s a / DimVal.scale s b := by
  obtain ⟨-, h1, h2, -⟩ := DimVal.sub_spec ha hb h
  unfold DimVal.scale
  have e : ∀ v w : List ℚ, List.zipWith (· - ·) v w = List.zipWith (· + ·) v (w.map (· * (-1 : ℚ))) := by
    intro v
    induction v with
    | nil => intro w; cases w <;> rfl
    | cons q v ih => intro w; cases w with
      | nil => rfl
      | cons r w => simp only [List.zipWith_cons_cons, List.map_cons, ih w]; congr 1; ring
  rw [h1, e, sc_add hs (by simp [DimVal.vec_length, h2]), sc_mul hs]; push_cast; rw [Real.rpow_neg_one, div_eq_mul_inv]

theorem DimVal.scale_div2 {s : List ℝ} (hs : ∀ x ∈ s, 0 < x) {a c : DimVal E} (ha : a.Canonical)
    (h : DimVal.div2 a = some c) : DimVal.scale s c = √(DimVal.scale s a) := by
  obtain ⟨-, h1⟩ := DimVal.div2_spec ha h
  unfold DimVal.scale
  have e : a.vec.map (· / 2) = a.vec.map (· * (1 / 2 : ℚ)) := by simp [div_eq_mul_inv]
  rw [h1, e, sc_mul hs, Real.sqrt_eq_rpow]; push_cast; rfl

theorem DimVal.scale_div3 {s : List ℝ} (hs : ∀ x ∈ s, 0 < x) {a c : DimVal E} (ha : a.Canonical)
    (h : DimVal.div3 a = some c) : DimVal.scale s c = (DimVal.scale s a) ^ ((3 : ℝ)⁻¹) := by
  obtain ⟨-, h1⟩ := DimVal.div3_spec ha h
  unfold DimVal.scale
  have e : a.vec.map (· / 3) = a.vec.map (· * (3⁻¹ : ℚ)) := by simp [div_eq_mul_inv]
  rw [h1, e, sc_mul hs]; push_cast; rfl
end

/-! ## Values -/

theorem Val.smul_one (v : Val ℝ ℝ) : v.smul 1 = v := by cases v <;> simp [Val.smul]

theorem hasTy_smul {E : Type} [FieldOps E] {v : Val ℝ ℝ} {t : Ty E} (h : v.HasTy t) (c : ℝ) : (v.smul c).HasTy t := by
  cases v <;> cases t <;> simp_all [Val.HasTy, Val.smul]

/-- Multiply the numbers of a primitive result. -/
noncomputable def RawOut.smul (c : ℝ) : RawOut ℝ → RawOut ℝ
  | .raw r => .raw (r.map (· * c))
  | .bool b => .bool b
  | .ordering o => .ordering o

theorem Operand.wrap_smul (p : Operand) (r : Raw ℝ) (c : ℝ) : (p.wrap r : Val ℝ ℝ).smul c = p.wrap (r.map (· * c)) := by
  unfold Operand.wrap; split <;> rfl

theorem result_smul (o : OperatorTrait) (x : RawOut ℝ) (c : ℝ) : (o.result x : Val ℝ ℝ).smul c = o.result (x.smul c) := by
  cases x
  · simp only [OperatorTrait.result, RawOut.smul]
    split
    · rfl
    · exact Operand.wrap_smul _ _ _
  · rfl
  · rfl

theorem zip_smul {f : ℝ → ℝ → ℝ} {a b c : ℝ} (hf : ∀ x y, f (x * a) (y * b) = f x y * c) (sl sr : Storage) (r r' : Raw ℝ) :
    Raw.zip f sl sr (r.map (· * a)) (r'.map (· * b)) = (Raw.zip f sl sr r r').map (List.map (· * c)) := by
  unfold Raw.zip
  split
  · rcases r with _ | ⟨x, _ | ⟨y, r⟩⟩ <;> simp [hf]
  · split
    · rcases r' with _ | ⟨x, _ | ⟨y, r'⟩⟩ <;> simp [hf]
    · simp [List.zipWith_map_left, List.zipWith_map_right, List.map_zipWith, hf]

section
variable [IdealFns]

/-- How an operator's result scales when its operands scale by `a` and `b`. -/
def ScaleRule (t : Trait) (a b c : ℝ) : Prop :=
  match t with
  | .add | .sub | .addAssign | .subAssign => a = c ∧ b = c
  | .mul | .mulAssign => c = a * b
  | .div | .divAssign => c = a / b
  | .partialEq | .partialOrd => a = b

theorem rawOp_smul {t : Trait} {a b c : ℝ} (ha : 0 < a) (h : ScaleRule t a b c) (sl sr : Storage) (r r' : Raw ℝ) :
    rawOp ℝ t sl sr (r.map (· * a)) (r'.map (· * b)) = (rawOp ℝ t sl sr r r').map (RawOut.smul c) := by
  unfold rawOp
  split
  · rfl
  · have key : ∀ {f : ℝ → ℝ → ℝ}, (∀ x y, f (x * a) (y * b) = f x y * c) →
        (Raw.zip f sl sr (r.map (· * a)) (r'.map (· * b))).map RawOut.raw =
          ((Raw.zip f sl sr r r').map RawOut.raw).map (RawOut.smul c) := by
      intro f hf
      rw [zip_smul hf]; simp [Option.map_map]; rfl
    cases t <;> simp only [ScaleRule] at h
    case partialEq =>
      subst h
      have : List.zipWith (Prims.eq ℝ sl.base) (r.map (· * a)) (r'.map (· * a)) = List.zipWith (Prims.eq ℝ sl.base) r r' := by
        rw [List.zipWith_map_left, List.zipWith_map_right]
        congr 1; funext x y
        simp only [Prims.eq]
        rw [decide_eq_decide]; exact ⟨fun h => mul_right_cancel₀ ha.ne' h, fun h => by rw [h]⟩
      simp [RawOut.smul, this]
    case partialOrd =>
      subst h
      rcases r with _ | ⟨x, _ | ⟨x', r⟩⟩ <;> rcases r' with _ | ⟨y, _ | ⟨y', r'⟩⟩ <;> simp [RawOut.smul]
      have e1 : ∀ u v : ℝ, Prims.eq ℝ sl.base (u * a) (v * a) = Prims.eq ℝ sl.base u v := by
        intro u v; simp only [Prims.eq]
        rw [decide_eq_decide]; exact ⟨fun h => mul_right_cancel₀ ha.ne' h, fun h => by rw [h]⟩
      have e2 : ∀ u v : ℝ, Prims.lt ℝ sl.base (u * a) (v * a) = Prims.lt ℝ sl.base u v := by
        intro u v; simp only [Prims.lt]
        rw [decide_eq_decide]; exact mul_lt_mul_iff_left₀ ha
      simp [partialCmp, e1, e2]
    case add | addAssign => obtain ⟨rfl, rfl⟩ := h; exact key fun x y => by simp only [arith, Prims.add]; ring
    case sub | subAssign => obtain ⟨rfl, rfl⟩ := h; exact key fun x y => by simp only [arith, Prims.sub]; ring
    case mul | mulAssign => subst h; exact key fun x y => by simp only [arith, Prims.mul]; ring
    case div | divAssign => subst h; exact key fun x y => by simp only [arith, Prims.div]; rw [mul_div_mul_comm]

variable {E : Type} [Exponent E] [LawfulExponent E] [FieldOps E] [LawfulFieldOps E]

/-- The scale rule of a well-typed operator application, and its result type is again a type of the unit system. -/
theorem op_rule {s : List ℝ} (hs : ∀ x ∈ s, 0 < x) {ss : List Storage} {o : OperatorTrait} (ho : o ∈ iterNumericTraits ss) {i : Inst E}
    {l r : OpTy E} {out : OpOut E} (h : o.Typed i l r out) (hl : l.ty.WF i.n) (hr : r.ty.WF i.n) :
    ScaleRule o.name (l.ty.scale s) (r.ty.scale s) ((out.ty l.ty).scale s) ∧ (out.ty l.ty).WF i.n := by
  obtain ⟨sl, sr, st, e1, e2, hst, hcase⟩ := typed_inv ho h
  have wq : ∀ {st} {d : DimVal E}, d.length = i.n ∧ d.Canonical → (Ty.quantity st d : Ty E).WF i.n := by
    rintro st d h d' hd; injection hd with hd; subst hd; exact h
  have wn : (DimVal.none i.n : DimVal E).length = i.n ∧ (DimVal.none i.n : DimVal E).Canonical := ⟨by simp [DimVal.none], DimVal.none_canonical _⟩
  have wb : (Ty.bool : Ty E).WF i.n := by rintro d hd; cases hd
  have wo : (Ty.ordering : Ty E).WF i.n := by rintro d hd; cases hd
  have wbare : ∀ st, (Ty.bare st : Ty E).WF i.n := by rintro st d hd; injection hd with hd; subst hd; exact wn
  obtain ⟨lref, lty⟩ := l
  obtain ⟨rref, rty⟩ := r
  simp only at hl hr hcase ⊢
  rcases hcase with ⟨dl, dr, d, -, -, rfl, rfl, hn, rfl⟩ | ⟨d, -, -, rfl, rfl, hn⟩ | ⟨d, -, -, rfl, er, hn, rfl⟩ | ⟨d, -, -, rfl, rfl, hn, rfl⟩ |
    ⟨d, d', -, -, rfl, rfl, hn, rfl⟩ | ⟨hk, hn⟩
  · have wl := hl dl (by simp [Ty.dim])
    have wr := hr dr (by simp [Ty.dim])
    rcases hn with ⟨hn, hd⟩ | ⟨hn, hd⟩
    · obtain ⟨c, -, -, len⟩ := DimVal.add_spec wl.2 wr.2 hd
      exact ⟨by simp [hn, ScaleRule, OpOut.ty, Ty.scale, DimVal.scale_add hs wl.2 wr.2 hd], wq ⟨by rw [len, wl.1], c⟩⟩
    · obtain ⟨c, -, -, len⟩ := DimVal.sub_spec wl.2 wr.2 hd
      exact ⟨by simp [hn, ScaleRule, OpOut.ty, Ty.scale, DimVal.scale_sub hs wl.2 wr.2 hd], wq ⟨by rw [len, wl.1], c⟩⟩
  · have wl := hl d (by simp [Ty.dim])
    rcases hn with ⟨hn | hn, rfl⟩ | ⟨hn | hn, rfl⟩ | ⟨hn, rfl⟩ | ⟨hn, rfl⟩ <;>
      exact ⟨by simp [hn, ScaleRule, OpOut.ty, Ty.scale], by first | exact wq wl | exact wb | exact wo⟩
  · have er' : rty.scale s = 1 := by rcases er with ⟨-, er⟩ | ⟨-, er⟩ <;> simp [er, Ty.scale, DimVal.scale_none]
    rcases hn with hn | hn <;> exact ⟨by simp [hn, ScaleRule, OpOut.ty, er'], hl⟩
  · rcases hn with hn | hn <;> exact ⟨by simp [hn, ScaleRule, OpOut.ty, Ty.scale], wq (hl d rfl)⟩
  · have wr := hr d (by simp [Ty.dim])
    rcases hn with ⟨hn, rfl⟩ | ⟨hn, hd⟩
    · exact ⟨by simp [hn, ScaleRule, OpOut.ty, Ty.scale], wq wr⟩
    · obtain ⟨c, -⟩ := DimVal.neg_spec wr.2 hd
      exact ⟨by simp [hn, ScaleRule, OpOut.ty, Ty.scale, DimVal.scale_neg hs wr.2 hd], wq ⟨by rw [DimVal.map1_length hd, wr.1], c⟩⟩
  · have e : lty.scale s = 1 ∧ rty.scale s = 1 := by
      rcases hk with ⟨-, -, rfl, rfl⟩ | ⟨-, -, rfl, rfl⟩ <;> simp [Ty.scale, DimVal.scale_none]
    have e' : (Ty.quantity st (DimVal.none i.n) : Ty E).scale s = 1 := DimVal.scale_none s i.n
    rcases hn with ⟨hn | hn, rfl⟩ | ⟨hn | hn, rfl⟩ | ⟨hn, rfl⟩ | ⟨hn, rfl⟩ | ⟨-, hn | hn, rfl⟩ <;>
      exact ⟨by simp [hn, ScaleRule, OpOut.ty, e.1, e.2, e'], by first | exact hl | exact wq wn | exact wb | exact wo⟩

theorem Ty.scale_pos {s : List ℝ} (hs : ∀ x ∈ s, 0 < x) (t : Ty E) : 0 < t.scale s := by
  cases t <;> simp only [Ty.scale] <;> first | exact DimVal.scale_pos hs _ | exact one_pos

/-- A well-typed operator application commutes with rescaling. -/
theorem op_scale {s : List ℝ} (hs : ∀ x ∈ s, 0 < x) {ss : List Storage} {o : OperatorTrait} (ho : o ∈ iterNumericTraits ss) {i : Inst E}
    {l r : OpTy E} {out : OpOut E} (h : o.Typed i l r out) (hl : l.ty.WF i.n) (hr : r.ty.WF i.n) {a b : Val ℝ ℝ} (ha : a.HasTy l.ty)
    (hb : b.HasTy r.ty) (sl sr : Storage) :
    o.run sl sr (a.rescale s l.ty) (b.rescale s r.ty) = (o.run sl sr a b).map (Val.rescale s (out.ty l.ty)) := by
  obtain ⟨x, y, rfl, rfl, -, -⟩ := hasTy_wrap h ha hb
  obtain ⟨rule, -⟩ := op_rule hs ho h hl hr
  unfold Val.rescale
  rw [Operand.wrap_smul, Operand.wrap_smul, table_run ho, table_run ho, rawOp_smul (Ty.scale_pos hs _) rule, Option.map_map, Option.map_map]
  congr 1; funext z; exact (result_smul _ _ _).symm

/-! ## Functions -/
variable [DecidableEq E]

theorem rescaleAll_all {s : List ℝ} {tys : List (Ty E)} {t : Ty E} (h : ∀ u ∈ tys, u = t) (args : List (Val ℝ ℝ)) (hl : args.length = tys.length) :
    rescaleAll s tys args = args.map (Val.rescale s t) := by
  unfold rescaleAll
  induction tys generalizing args with
  | nil => cases args <;> simp_all
  | cons u tys ih =>
    cases args with
    | nil => simp at hl
    | cons v args =>
      simp only [List.zipWith_cons_cons, List.map_cons, h u (by simp)]
      rw [ih (fun w hw => h w (by simp [hw])) _ (by simpa using hl)]

theorem foldl_zipWith_smul (c : ℝ) (rs : List (Raw ℝ)) (a : Raw ℝ) :
    (rs.map (List.map (· * c))).foldl (List.zipWith (fun x y : ℝ => x + y)) (a.map (· * c)) =
      (rs.foldl (List.zipWith (fun x y : ℝ => x + y)) a).map (· * c) := by
  induction rs generalizing a with
  | nil => rfl
  | cons r rs ih =>
    simp only [List.map_cons, List.foldl_cons]
    rw [← ih]
    congr 1
    simp [List.zipWith_map_left, List.zipWith_map_right, List.map_zipWith, add_mul]

theorem foldl_add_smul (c : ℝ) (ps : List ℝ) (p : ℝ) : (ps.map (· * c)).foldl (fun x y : ℝ => x + y) (p * c) = ps.foldl (fun x y : ℝ => x + y) p * c := by
  induction ps generalizing p with
  | nil => rfl
  | cons q ps ih => simp only [List.map_cons, List.foldl_cons, ← add_mul, ih]

theorem rawDot_smul (t : FloatTy) (r r' : Raw ℝ) (a b : ℝ) :
    rawDot ℝ t (r.map (· * a)) (r'.map (· * b)) = (rawDot ℝ t r r').map (· * (a * b)) := by
  unfold rawDot
  have e : List.zipWith (Prims.mul ℝ t) (r.map (· * a)) (r'.map (· * b)) = (List.zipWith (Prims.mul ℝ t) r r').map (· * (a * b)) := by
    simp only [List.zipWith_map_left, List.zipWith_map_right, List.map_zipWith]
    congr 1; funext x y; simp only [Prims.mul]; ring
  rw [e]
  cases List.zipWith (Prims.mul ℝ t) r r' with
  | nil => rfl
  | cons p ps => exact congrArg some (foldl_add_smul _ ps p)

theorem rawLength_smul (t : FloatTy) (r : Raw ℝ) {a : ℝ} (ha : 0 < a) :
    rawLength ℝ t (r.map (· * a)) = (rawLength ℝ t r).map (· * a) := by
  unfold rawLength
  rw [rawDot_smul, Option.map_map, Option.map_map]
  congr 1; funext x
  simp only [Function.comp, Prims.sqrt]
  rw [Real.sqrt_mul' _ (mul_self_nonneg a), Real.sqrt_mul_self ha.le]

theorem zipSub_smul (t : FloatTy) (r r' : Raw ℝ) (a : ℝ) :
    List.zipWith (Prims.sub ℝ t) (r.map (· * a)) (r'.map (· * a)) = (List.zipWith (Prims.sub ℝ t) r r').map (· * a) := by
  simp only [List.zipWith_map_left, List.zipWith_map_right, List.map_zipWith]
  congr 1; funext x y; simp only [Prims.sub]; ring

theorem realCbrt_smul (x : ℝ) {a : ℝ} (ha : 0 < a) : realCbrt (x * a) = realCbrt x * a ^ ((3 : ℝ)⁻¹) := by
  unfold realCbrt
  rcases le_or_gt 0 x with h | h
  · rw [if_pos h, if_pos (mul_nonneg h ha.le), Real.mul_rpow h ha.le]
  · rw [if_neg (not_le.2 h), if_neg (not_le.2 (mul_neg_of_neg_of_pos h ha))]
    rw [← neg_mul, Real.mul_rpow (by linarith) ha.le]; ring

/-- The result type of a generated function is again a type of the unit system. -/
theorem fn_wf {n : Nat} {f : Fn E} {tys : List (Ty E)} {t : Ty E} (h : f.sig n tys = some t) (hw : ∀ u ∈ tys, u.WF n) (ha : f.AnnotWF n) :
    t.WF n := by
  have wq : ∀ {st} {d : DimVal E}, d.length = n ∧ d.Canonical → (Ty.quantity st d : Ty E).WF n := by
    rintro st d h d' hd; injection hd with hd; subst hd; exact h
  have wr : ∀ {d : DimVal E}, d.length = n ∧ d.Canonical → (Ty.runtimeUnit d : Ty E).WF n := by
    rintro d h d' hd; injection hd with hd; subst hd; exact h
  have wn : (DimVal.none n : DimVal E).length = n ∧ (DimVal.none n : DimVal E).Canonical := ⟨by simp [DimVal.none], DimVal.none_canonical _⟩
  have wb : (Ty.bool : Ty E).WF n := by rintro d hd; cases hd
  have wbare : ∀ {st}, (Ty.bare st : Ty E).WF n := by rintro st d hd; injection hd with hd; subst hd; exact wn
  have wadd : ∀ {a b c : DimVal E}, a.length = n ∧ a.Canonical → b.length = n ∧ b.Canonical → DimVal.add a b = some c → c.length = n ∧ c.Canonical :=
    fun ha hb h => by obtain ⟨h1, -, -, h2⟩ := DimVal.add_spec ha.2 hb.2 h; exact ⟨by rw [h2, ha.1], h1⟩
  have wsub : ∀ {a b c : DimVal E}, a.length = n ∧ a.Canonical → b.length = n ∧ b.Canonical → DimVal.sub a b = some c → c.length = n ∧ c.Canonical :=
    fun ha hb h => by obtain ⟨h1, -, -, h2⟩ := DimVal.sub_spec ha.2 hb.2 h; exact ⟨by rw [h2, ha.1], h1⟩
  have wmul : ∀ {a c : DimVal E} {k : Int}, a.length = n ∧ a.Canonical → DimVal.mul a k = some c → c.length = n ∧ c.Canonical :=
    fun ha h => ⟨by rw [DimVal.map1_length h, ha.1], (DimVal.mul_spec ha.2 h).1⟩
  have wdiv2 : ∀ {a c : DimVal E}, a.length = n ∧ a.Canonical → DimVal.div2 a = some c → c.length = n ∧ c.Canonical :=
    fun ha h => ⟨by rw [DimVal.map1_length h, ha.1], (DimVal.div2_spec ha.2 h).1⟩
  have wdiv3 : ∀ {a c : DimVal E}, a.length = n ∧ a.Canonical → DimVal.div3 a = some c → c.length = n ∧ c.Canonical :=
    fun ha h => ⟨by rw [DimVal.map1_length h, ha.1], (DimVal.div3_spec ha.2 h).1⟩
  cases f <;> simp only [Fn.sig] at h
  case sum s d =>
    split at h <;> [skip; cases h]
    injection h with h; subst h
    exact wq ha
  all_goals
    split at h
    all_goals first
      | (cases h; done)
      | skip
    all_goals try (split at h)
    all_goals first
      | (cases h; done)
      | skip
    all_goals try (split at h)
    all_goals first
      | (cases h; done)
      | skip
    all_goals first
      | (injection h with h; subst h
         first
         | exact wb | exact wbare | exact wq wn
         | exact wq (hw _ (by simp) _ rfl)
         | exact wq (hw _ (List.mem_cons_self ..) _ rfl)
         | exact wq (hw _ (List.mem_cons_of_mem _ (List.mem_cons_self ..)) _ rfl)
         | exact wq ha)
      | (obtain ⟨d', hd', rfl⟩ := Option.map_eq_some_iff.1 h
         first
         | exact wq (wmul (hw _ (List.mem_cons_self ..) _ rfl) hd')
         | exact wq (wdiv2 (hw _ (List.mem_cons_self ..) _ rfl) hd')
         | exact wq (wdiv3 (hw _ (List.mem_cons_self ..) _ rfl) hd')
         | exact wq (wadd (hw _ (List.mem_cons_self ..) _ rfl) (hw _ (List.mem_cons_of_mem _ (List.mem_cons_self ..)) _ rfl) hd')
         | exact wq (wsub (hw _ (List.mem_cons_self ..) _ rfl) (hw _ (List.mem_cons_of_mem _ (List.mem_cons_self ..)) _ rfl) hd')
         | exact wr (wadd (hw _ (List.mem_cons_self ..) _ rfl) (hw _ (List.mem_cons_of_mem _ (List.mem_cons_self ..)) _ rfl) hd')
         | exact wr (wsub (hw _ (List.mem_cons_self ..) _ rfl) (hw _ (List.mem_cons_of_mem _ (List.mem_cons_self ..)) _ rfl) hd'))

set_option hygiene false in
local macro "q1" : tactic => `(tactic| (obtain ⟨_, rfl, hv⟩ := args1.1 ha; obtain ⟨r, rfl, hr⟩ := hasTy_quantity.1 hv))
set_option hygiene false in
local macro "b1" : tactic => `(tactic| (obtain ⟨_, rfl, hv⟩ := args1.1 ha; obtain ⟨r, rfl, hr⟩ := hasTy_bare.1 hv))
set_option hygiene false in
local macro "qq" : tactic => `(tactic| (obtain ⟨_, _, rfl, hv, hw2⟩ := args2.1 ha; obtain ⟨r, rfl, hr⟩ := hasTy_quantity.1 hv; obtain ⟨r', rfl, hr'⟩ := hasTy_quantity.1 hw2))
set_option hygiene false in
local macro "sI" : tactic => `(tactic| (split at h <;> [skip; cases h]))
set_option hygiene false in
local macro "inj" : tactic => `(tactic| (injection h with h; subst h))
set_option hygiene false in
local macro "ev'" : tactic => `(tactic| simp only [rescaleAll, List.zipWith_cons_cons, List.zipWith_nil_left, Val.rescale, Val.smul, Fn.body, Ty.scale, Option.map_map, List.map_cons, List.map_nil, Function.comp_def])
set_option hygiene false in
local macro "ev" : tactic => `(tactic| simp [rescaleAll, Val.rescale, Val.smul, Fn.body, Ty.scale, DimVal.scale_none])

theorem into0_scale {n : Nat} {st : Storage} {d : DimVal E} {t : Ty E} (h : intoQuantityOk n st d t = true) (s : List ℝ) {v : Val ℝ ℝ}
    (hv : v.HasTy t) : (v.rescale s t).into0 = v.into0.map (List.map (· * DimVal.scale s d)) := by
  cases t <;> simp only [intoQuantityOk, Bool.and_eq_true, decide_eq_true_eq, Bool.false_eq_true] at h
  · obtain ⟨r, rfl, hr⟩ := hasTy_quantity.1 hv
    obtain ⟨rfl, rfl⟩ := h; rfl
  · obtain ⟨r, rfl, hr⟩ := hasTy_bare.1 hv
    obtain ⟨rfl, rfl⟩ := h
    simp [Val.rescale, Ty.scale, Val.smul, Val.into0, DimVal.scale_none]

theorem lt_smul (t : FloatTy) {a : ℝ} (ha : 0 < a) (x y : ℝ) : Prims.lt ℝ t (x * a) (y * a) = Prims.lt ℝ t x y := by
  simp only [Prims.lt]; rw [decide_eq_decide]; exact mul_lt_mul_iff_left₀ ha
theorem eq_smul (t : FloatTy) {a : ℝ} (ha : 0 < a) (x y : ℝ) : Prims.eq ℝ t (x * a) (y * a) = Prims.eq ℝ t x y := by
  simp only [Prims.eq]; rw [decide_eq_decide]; exact ⟨fun h => mul_right_cancel₀ ha.ne' h, fun h => by rw [h]⟩
theorem zero_lt_smul (t : FloatTy) {a : ℝ} (ha : 0 < a) (x : ℝ) : Prims.lt ℝ t (Prims.zero ℝ t) (x * a) = Prims.lt ℝ t (Prims.zero ℝ t) x := by
  simpa [Prims.zero] using lt_smul t ha (Prims.zero ℝ t) x
theorem lt_zero_smul (t : FloatTy) {a : ℝ} (ha : 0 < a) (x : ℝ) : Prims.lt ℝ t (x * a) (Prims.zero ℝ t) = Prims.lt ℝ t x (Prims.zero ℝ t) := by
  simpa [Prims.zero] using lt_smul t ha x (Prims.zero ℝ t)
theorem zero_eq_smul (t : FloatTy) {a : ℝ} (ha : 0 < a) (x : ℝ) : Prims.eq ℝ t (Prims.zero ℝ t) (x * a) = Prims.eq ℝ t (Prims.zero ℝ t) x := by
  simpa [Prims.zero] using eq_smul t ha (Prims.zero ℝ t) x
theorem eq_zero_smul (t : FloatTy) {a : ℝ} (ha : 0 < a) (x : ℝ) : Prims.eq ℝ t (x * a) (Prims.zero ℝ t) = Prims.eq ℝ t x (Prims.zero ℝ t) := by
  simpa [Prims.zero] using eq_smul t ha x (Prims.zero ℝ t)

theorem clamp_body {st : Storage} {x a b : ℝ} {v w : Val ℝ ℝ} (h1 : v.into0 = some [a]) (h2 : w.into0 = some [b]) :
    (Fn.clamp : Fn E).body st [.quantity [x], v, w] = (Prims.clamp ℝ st.base x a b).map fun y => .quantity [y] := by
  simp [Fn.body, h1, h2]

/-- A faithful call of a generated function commutes with rescaling. -/
theorem fn_scale {s : List ℝ} (hs : ∀ x ∈ s, 0 < x) {n : Nat} {f : Fn E} {tys : List (Ty E)} {t : Ty E} (hok : FaithfulCall n f tys)
    (hw : ∀ u ∈ tys, u.WF n) (h : f.sig n tys = some t) {args : List (Val ℝ ℝ)} (ha : ArgsHaveTy args tys) :
    f.run n tys (rescaleAll s tys args) = (f.run n tys args).map (Val.rescale s t) := by
  have hrun : ∀ args : List (Val ℝ ℝ), f.run n tys args = f.body ((storageOf tys).getD .f64) args := fun args => by simp [Fn.run, h]
  rw [hrun, hrun]; clear hrun
  have hp : ∀ d : DimVal E, 0 < DimVal.scale s d := DimVal.scale_pos hs
  cases f <;> simp only [Fn.sig] at h
  case sum st d =>
    split at h <;> [skip; cases h]
    rename_i hall
    inj
    have hall' : ∀ u ∈ tys, u = Ty.quantity st d := by simpa using hall
    rw [rescaleAll_all hall' args ha.length_eq]
    obtain ⟨rs, rfl, hrs⟩ := argsHaveTy_all_quantity hall' ha
    have e : (rs.map (Val.quantity (M := ℝ))).map (Val.rescale s (.quantity st d)) = (rs.map (List.map (· * DimVal.scale s d))).map .quantity := by
      simp [Val.rescale, Val.smul, Ty.scale]
    have hz : (zeroRaw ℝ st : Raw ℝ) = (zeroRaw ℝ st : Raw ℝ).map (· * DimVal.scale s d) := by
      simp [zeroRaw, Prims.zero]
    simp only [Fn.body]
    rw [e, (sumLoop_eq rs hrs _ (zeroRaw_length st)).1, (sumLoop_eq _ (by simpa using hrs) _ (zeroRaw_length st)).1, hz]
    simp only [Option.map_some, Val.rescale, Val.smul, Ty.scale]
    refine congrArg (fun x => some (Val.quantity x)) ?_
    rw [← hz]
    conv_lhs => rw [hz]
    exact foldl_zipWith_smul _ rs _
  case value => sI; sI; q1; inj; subst_vars; ev
  case valueRef => sI; sI; q1; inj; subst_vars; ev
  case deref => sI; sI; q1; inj; subst_vars; ev
  case valueUnchecked => exact absurd hok.1 (by simp [CheckedCall])
  case valueUncheckedRef => exact absurd hok.1 (by simp [CheckedCall])
  case newUnchecked => exact absurd hok.1 (by simp [CheckedCall])
  case «from» => sI; b1; inj; ev
  case neg => sI; q1; inj; ev; simp [Prims.neg]
  case abs => sI; q1; inj; ev; simp [Prims.abs, abs_mul, abs_of_pos (hp _)]
  case default => sI; rw [args0] at ha; subst ha; inj; ev; simp [zeroRaw, Prims.zero]
  case zero => sI; rw [args0] at ha; subst ha; inj; ev; simp [zeroRaw, Prims.zero]
  case dimensionless =>
    sI; sI; q1; rename_i hc
    simp only [Bool.and_eq_true, decide_eq_true_eq] at hc
    obtain ⟨x, rfl⟩ := rawLen_float hc.1 hr; inj; obtain ⟨-, rfl⟩ := hc; ev
  case powi i =>
    sI; sI; q1; rename_i hc
    simp only [Bool.and_eq_true] at hc
    obtain ⟨x, rfl⟩ := rawLen_float hc.1 hr
    obtain ⟨d', hd', rfl⟩ := Option.map_eq_some_iff.1 h
    ev; rw [DimVal.scale_mul hs (hw _ (List.mem_cons_self ..) _ rfl).2 hd']; exact mul_zpow _ _ _
  case squared =>
    sI; sI; q1; rename_i hc
    obtain ⟨x, rfl⟩ := rawLen_float hc hr
    obtain ⟨d', hd', rfl⟩ := Option.map_eq_some_iff.1 h
    ev; rw [DimVal.scale_mul hs (hw _ (List.mem_cons_self ..) _ rfl).2 hd']; exact mul_zpow _ _ _
  case cubed =>
    sI; sI; q1; rename_i hc
    obtain ⟨x, rfl⟩ := rawLen_float hc hr
    obtain ⟨d', hd', rfl⟩ := Option.map_eq_some_iff.1 h
    ev; rw [DimVal.scale_mul hs (hw _ (List.mem_cons_self ..) _ rfl).2 hd']; exact mul_zpow _ _ _
  case sqrt =>
    sI; sI; q1; rename_i hc
    obtain ⟨x, rfl⟩ := rawLen_float hc hr
    obtain ⟨d', hd', rfl⟩ := Option.map_eq_some_iff.1 h
    ev; rw [DimVal.scale_div2 hs (hw _ (List.mem_cons_self ..) _ rfl).2 hd']; exact Real.sqrt_mul' _ (hp _).le
  case cbrt =>
    sI; sI; q1; rename_i hc
    obtain ⟨x, rfl⟩ := rawLen_float hc hr
    obtain ⟨d', hd', rfl⟩ := Option.map_eq_some_iff.1 h
    ev; rw [DimVal.scale_div3 hs (hw _ (List.mem_cons_self ..) _ rfl).2 hd']; exact realCbrt_smul _ (hp _)
  case isPositive =>
    sI; sI; q1; rename_i hc; obtain ⟨x, rfl⟩ := rawLen_float hc hr; inj; ev
    first | rw [zero_lt_smul _ (hp _)] | rw [lt_zero_smul _ (hp _)]
  case isPositiveOrZero =>
    sI; sI; q1; rename_i hc; obtain ⟨x, rfl⟩ := rawLen_float hc hr; inj; ev; unfold rawLe
    first | rw [zero_lt_smul _ (hp _), zero_eq_smul _ (hp _)] | rw [lt_zero_smul _ (hp _), eq_zero_smul _ (hp _)]
  case isNegative =>
    sI; sI; q1; rename_i hc; obtain ⟨x, rfl⟩ := rawLen_float hc hr; inj; ev
    first | rw [zero_lt_smul _ (hp _)] | rw [lt_zero_smul _ (hp _)]
  case isNegativeOrZero =>
    sI; sI; q1; rename_i hc; obtain ⟨x, rfl⟩ := rawLen_float hc hr; inj; ev; unfold rawLe
    first | rw [zero_lt_smul _ (hp _), zero_eq_smul _ (hp _)] | rw [lt_zero_smul _ (hp _), eq_zero_smul _ (hp _)]
  case isNan => sI; sI; q1; rename_i hc; obtain ⟨x, rfl⟩ := rawLen_float hc hr; inj; ev; rfl
  case min =>
    split at h <;> [skip; cases h]
    rename_i st d u
    obtain ⟨_, w, rfl, hv, hw2⟩ := args2.1 ha
    obtain ⟨r, rfl, hr⟩ := hasTy_quantity.1 hv
    have hi : intoQuantityOk n st d u = true := by
      split at h
      · split at h <;> [assumption; cases h]
      · split at h <;> [skip; cases h]
        subst_vars; simp [intoQuantityOk]
    have ht : t = .quantity st d := by
      split at h <;> (try split at h) <;> first | (injection h with h; exact h.symm) | cases h
    subst ht
    have e := into0_scale hi s hw2
    obtain ⟨r', h1, -⟩ := into0_of hi hw2
    rw [h1] at e
    show Option.map (fun r' => Val.quantity (List.zipWith (Prims.min ℝ st.base) (r.map (· * DimVal.scale s d)) r')) (w.rescale s u).into0 =
      Option.map (Val.rescale s (.quantity st d)) (Option.map (fun r' => Val.quantity (List.zipWith (Prims.min ℝ st.base) r r')) w.into0)
    rw [e, h1]
    simp only [Option.map_some, List.zipWith_map_left, List.zipWith_map_right, List.map_zipWith, Val.rescale, Val.smul, Ty.scale]
    refine congrArg (fun x => some (Val.quantity x)) ?_
    congr 1; funext x y; exact (min_mul_of_nonneg _ _ (hp _).le).symm
  case max =>
    split at h <;> [skip; cases h]
    rename_i st d u
    obtain ⟨_, w, rfl, hv, hw2⟩ := args2.1 ha
    obtain ⟨r, rfl, hr⟩ := hasTy_quantity.1 hv
    have hi : intoQuantityOk n st d u = true := by
      split at h
      · split at h <;> [assumption; cases h]
      · split at h <;> [skip; cases h]
        subst_vars; simp [intoQuantityOk]
    have ht : t = .quantity st d := by
      split at h <;> (try split at h) <;> first | (injection h with h; exact h.symm) | cases h
    subst ht
    have e := into0_scale hi s hw2
    obtain ⟨r', h1, -⟩ := into0_of hi hw2
    rw [h1] at e
    show Option.map (fun r' => Val.quantity (List.zipWith (Prims.max ℝ st.base) (r.map (· * DimVal.scale s d)) r')) (w.rescale s u).into0 =
      Option.map (Val.rescale s (.quantity st d)) (Option.map (fun r' => Val.quantity (List.zipWith (Prims.max ℝ st.base) r r')) w.into0)
    rw [e, h1]
    simp only [Option.map_some, List.zipWith_map_left, List.zipWith_map_right, List.map_zipWith, Val.rescale, Val.smul, Ty.scale]
    refine congrArg (fun x => some (Val.quantity x)) ?_
    congr 1; funext x y; exact (max_mul_of_nonneg _ _ (hp _).le).symm
  case clamp =>
    split at h <;> [skip; cases h]
    rename_i st d u u'
    split at h <;> [skip; cases h]
    rename_i hc
    simp only [Bool.and_eq_true, decide_eq_true_eq] at hc
    obtain ⟨⟨hf, hi⟩, hu⟩ := hc
    subst u'
    obtain ⟨q, v, w, rfl, hv, hw1, hw2⟩ := args3.1 ha
    obtain ⟨r, rfl, hr⟩ := hasTy_quantity.1 hv
    obtain ⟨x, rfl⟩ := rawLen_float hf hr
    obtain ⟨a, h1, h2⟩ := into0_of hi hw1
    obtain ⟨b, h3, h4⟩ := into0_of hi hw2
    obtain ⟨a, rfl⟩ := rawLen_float hf h2
    obtain ⟨b, rfl⟩ := rawLen_float hf h4
    injection h with h; subst h
    have e1 := into0_scale hi s hw1
    have e2 := into0_scale hi s hw2
    rw [h1] at e1
    rw [h3] at e2
    have er : rescaleAll s [.quantity st d, u, u] [Val.quantity [x], v, w] =
      [Val.quantity [x * DimVal.scale s d], v.rescale s u, w.rescale s u] := rfl
    rw [er, clamp_body e1 e2, clamp_body h1 h3]
    simp only [Prims.clamp, Val.rescale, Ty.scale]
    by_cases hab : a ≤ b
    · rw [if_pos hab, if_pos (mul_le_mul_of_nonneg_right hab (hp _).le)]
      simp only [Option.map_some, List.map_cons, List.map_nil, Val.smul, Val.rescale, Ty.scale]
      rw [max_mul_of_nonneg _ _ (hp _).le, min_mul_of_nonneg _ _ (hp _).le]
    · rw [if_neg hab, if_neg (fun h => hab (le_of_mul_le_mul_right h (hp _)))]; rfl
  case vnew =>
    split at h
    · split at h <;> [skip; cases h]; rename_i hc
      simp only [Bool.and_eq_true, decide_eq_true_eq, beq_iff_eq] at hc
      obtain ⟨⟨-, hd⟩, rfl, rfl, rfl⟩ := hc
      qq
      obtain ⟨x, rfl⟩ := rawLen_float (Storage.base_isFloat _) hr
      obtain ⟨y, rfl⟩ := rawLen_float (Storage.base_isFloat _) hr'
      inj; ev
    · split at h <;> [skip; cases h]; rename_i hc
      simp only [Bool.and_eq_true, decide_eq_true_eq, beq_iff_eq] at hc
      obtain ⟨⟨-, hd⟩, rfl, rfl, rfl, rfl, rfl⟩ := hc
      obtain ⟨_, _, _, rfl, hv, hw1, hw2⟩ := args3.1 ha
      obtain ⟨r, rfl, hr⟩ := hasTy_quantity.1 hv
      obtain ⟨r', rfl, hr'⟩ := hasTy_quantity.1 hw1
      obtain ⟨r'', rfl, hr''⟩ := hasTy_quantity.1 hw2
      obtain ⟨x, rfl⟩ := rawLen_float (Storage.base_isFloat _) hr
      obtain ⟨y, rfl⟩ := rawLen_float (Storage.base_isFloat _) hr'
      obtain ⟨z, rfl⟩ := rawLen_float (Storage.base_isFloat _) hr''
      inj; ev
    · cases h
  case newAxis a st =>
    sI; sI
    rename_i hc
    simp only [Bool.and_eq_true, decide_eq_true_eq, axisOk] at hc
    obtain ⟨⟨hvec, -⟩, rfl⟩ := hc
    q1
    obtain ⟨x, rfl⟩ := rawLen_float (Storage.base_isFloat _) hr
    inj
    ev
    rw [mulAxis_run hvec, mulAxis_run hvec]
    simp only [Option.map_some, Val.rescale, Ty.scale, Val.smul, List.map_map]
    refine congrArg (fun x => some (Val.quantity x)) (List.map_congr_left fun y _ => ?_)
    simp only [Function.comp, Prims.mul]; ring
  case axis a =>
    sI; sI; q1; inj; ev
    cases r[a.idx]? <;> simp [Val.smul, Val.rescale, Ty.scale]
  case setAxis a =>
    sI; sI
    rename_i hc
    simp only [Bool.and_eq_true, decide_eq_true_eq, axisOk] at hc
    obtain ⟨-, rfl, rfl⟩ := hc
    qq
    obtain ⟨x, rfl⟩ := rawLen_float (Storage.base_isFloat _) hr'
    inj; ev
  case length =>
    sI; sI; q1; inj; ev
    rw [rawLength_smul _ _ (hp _), Option.map_map]; rfl
  case distance =>
    sI; sI
    rename_i hc
    simp only [Bool.and_eq_true, decide_eq_true_eq] at hc
    obtain ⟨-, rfl, rfl⟩ := hc
    qq; inj; ev'
    rw [zipSub_smul, rawLength_smul _ _ (hp _), Option.map_map]; rfl
  case distanceSquared =>
    sI; sI
    rename_i hc
    simp only [Bool.and_eq_true, decide_eq_true_eq] at hc
    obtain ⟨-, rfl, rfl⟩ := hc
    qq
    obtain ⟨d', hd', rfl⟩ := Option.map_eq_some_iff.1 h
    ev'
    rw [zipSub_smul, rawDot_smul, Option.map_map, DimVal.scale_mul hs (hw _ (List.mem_cons_self ..) _ rfl).2 hd', zpow_two]; rfl
  case normalize =>
    sI; sI; q1; inj; ev
    rw [rawLength_smul _ _ (hp _), Option.map_map]
    congr 1; funext l
    simp only [Function.comp, Val.rescale, Ty.scale, DimVal.scale_none, mul_one, List.map_id', Val.smul, Val.quantity.injEq, List.map_map]
    refine List.map_congr_left fun x _ => ?_
    rename_i d _ _
    have := (hp d).ne'
    simp only [Function.comp, Prims.mul, Prims.div, Prims.one, mul_one]
    field_simp
  case dot =>
    sI; sI
    rename_i hc
    simp only [Bool.and_eq_true, decide_eq_true_eq] at hc
    obtain ⟨-, rfl⟩ := hc
    qq
    obtain ⟨d', hd', rfl⟩ := Option.map_eq_some_iff.1 h
    ev'
    rw [rawDot_smul, Option.map_map, DimVal.scale_add hs (hw _ (List.mem_cons_self ..) _ rfl).2
      (hw _ (List.mem_cons_of_mem _ (List.mem_cons_self ..)) _ rfl).2 hd']; rfl
  case valueIn =>
    split at h
    · sI
      obtain ⟨_, _, rfl, hv, hw2⟩ := args2.1 ha
      obtain ⟨r, rfl, hr⟩ := hasTy_quantity.1 hv
      obtain ⟨m, rfl⟩ := hasTy_unit.1 hw2
      have e := hok.1
      simp only [CheckedCall, Ty.dim, Option.some.injEq] at e
      subst e
      inj; ev
      intro x _
      exact mul_div_mul_right _ _ (hp _).ne'
    · sI
      obtain ⟨_, _, rfl, hv, hw2⟩ := args2.1 ha
      obtain ⟨r, rfl, hr⟩ := hasTy_quantity.1 hv
      obtain ⟨m, rfl⟩ := hasTy_runtimeUnit.1 hw2
      have e := hok.1
      simp only [CheckedCall, Ty.dim, Option.some.injEq] at e
      subst e
      inj; ev
      intro x _
      exact mul_div_mul_right _ _ (hp _).ne'
    · cases h
  all_goals
    split at h
    all_goals first
      | (cases h; done)
      | (obtain ⟨_, _, rfl, hv, hw2⟩ := args2.1 ha
         simp only [hasTy_quantity, hasTy_bare, hasTy_unit, hasTy_runtimeUnit] at hv hw2
         try (split at h <;> [skip; cases h])
         first
         | (obtain ⟨r, rfl, hr⟩ := hv
            obtain ⟨m, rfl⟩ := hw2)
         | (obtain ⟨m, rfl⟩ := hv
            obtain ⟨r, rfl, hr⟩ := hw2)
         | (obtain ⟨m, rfl⟩ := hv
            obtain ⟨m', rfl⟩ := hw2)
         first
         | inj
         | (obtain ⟨d', hd', rfl⟩ := Option.map_eq_some_iff.1 h
            have w1 := (hw _ (List.mem_cons_self ..) _ rfl).2
            have w2 := (hw _ (List.mem_cons_of_mem _ (List.mem_cons_self ..)) _ rfl).2
            first
            | have hd2 := DimVal.scale_add hs w1 w2 hd'
            | have hd2 := DimVal.scale_sub hs w1 w2 hd')
         ev
         try rw [hd2]
         try intro x _
         simp only [Prims.mul, Prims.div, Prims.into, Prims.magMul, Prims.magDiv]
         try ring
         done)
      | (exfalso; exact hok.2.1 ⟨rfl, by simp only [WrongQuotient]⟩; done)
end
end Diman
