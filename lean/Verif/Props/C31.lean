import Verif.Proofs.Api
import Verif.Proofs.Exponent
import Verif.Spec.Ideal
import Mathlib.Algebra.BigOperators.Group.List.Basic
import Mathlib.Algebra.Order.BigOperators.Group.List
/-!
# C31 — vector accessors, constructors and products are componentwise and dimension-correct
The statements about components hold for every number type and every choice of the primitive operations (`K`, `M`, `Prims K M`); those
about lengths hold in exact arithmetic (`Spec/Ideal.lean`).
-/
set_option linter.unusedSectionVars false
set_option linter.unusedSimpArgs false
namespace Diman
variable {E : Type} [FieldOps E] [DecidableEq E] {K M : Type} [Prims K M]

/-- A vector type has the axes x, y and, with three components, z. -/
def Axis.Of (a : Axis) (s : Storage) : Prop := s.isVector = true ∧ (a = .z → s.numDims = 3)

theorem axisOk_iff (a : Axis) (s : Storage) : axisOk a s = true ↔ a.Of s := by
  cases a <;> cases s <;> simp [axisOk, Axis.Of, Storage.isVector, Storage.isFloat, Storage.numDims, Axis.idx]

/-- The types of the accessors, constructors and products: when a call type-checks, and the type of its result. -/
theorem C31_types (n : Nat) (a : Axis) (s : Storage) (tys : List (Ty E)) (t : Ty E) :
    ((Fn.vnew s).sig n tys = some t ↔ s.isVector = true ∧ ∃ d, t = .quantity s d ∧ tys = List.replicate s.numDims (.quantity s.base.storage d)) ∧
    ((Fn.newAxis a s).sig n tys = some t ↔ a.Of s ∧ ∃ d, t = .quantity s d ∧ tys = [.quantity s.base.storage d]) ∧
    ((Fn.axis a).sig n tys = some t ↔ ∃ s' d, a.Of s' ∧ t = .quantity s'.base.storage d ∧ tys = [.quantity s' d]) ∧
    ((Fn.setAxis a).sig n tys = some t ↔
      ∃ s' d, a.Of s' ∧ t = .quantity s' d ∧ tys = [.quantity s' d, .quantity s'.base.storage d]) := by
  refine ⟨?_, ?_, ?_, ?_⟩
  · constructor
    · intro h
      simp only [Fn.sig] at h
      split at h
      · split at h <;> [skip; cases h]
        rename_i hc
        simp only [Bool.and_eq_true, beq_iff_eq, decide_eq_true_eq] at hc
        obtain ⟨⟨hv, hn⟩, rfl, rfl, rfl⟩ := hc
        injection h with h
        exact ⟨hv, _, h.symm, by rw [hn]; rfl⟩
      · split at h <;> [skip; cases h]
        rename_i hc
        simp only [Bool.and_eq_true, beq_iff_eq, decide_eq_true_eq] at hc
        obtain ⟨⟨hv, hn⟩, rfl, rfl, rfl, rfl, rfl⟩ := hc
        injection h with h
        exact ⟨hv, _, h.symm, by rw [hn]; rfl⟩
      · cases h
    · rintro ⟨hv, d, rfl, rfl⟩
      cases s <;> first | (cases hv; done) | simp [Fn.sig, Storage.numDims, Storage.isVector, Storage.isFloat, List.replicate]
  · constructor
    · intro h
      simp only [Fn.sig] at h
      split at h <;> [skip; cases h]
      split at h <;> [skip; cases h]
      rename_i hc
      simp only [Bool.and_eq_true, decide_eq_true_eq] at hc
      obtain ⟨h1, rfl⟩ := hc
      injection h with h
      exact ⟨(axisOk_iff _ _).1 h1, _, h.symm, rfl⟩
    · rintro ⟨h, d, rfl, rfl⟩
      simp [Fn.sig, (axisOk_iff _ _).2 h]
  · constructor
    · intro h
      simp only [Fn.sig] at h
      split at h <;> [skip; cases h]
      split at h <;> [skip; cases h]
      rename_i hc
      injection h with h
      exact ⟨_, _, (axisOk_iff _ _).1 hc, h.symm, rfl⟩
    · rintro ⟨s', d, h, rfl, rfl⟩
      simp [Fn.sig, (axisOk_iff _ _).2 h]
  · constructor
    · intro h
      simp only [Fn.sig] at h
      split at h <;> [skip; cases h]
      split at h <;> [skip; cases h]
      rename_i hc
      simp only [Bool.and_eq_true, decide_eq_true_eq] at hc
      obtain ⟨h1, rfl, rfl⟩ := hc
      injection h with h
      exact ⟨_, _, (axisOk_iff _ _).1 h1, h.symm, rfl⟩
    · rintro ⟨s', d, h, rfl, rfl⟩
      simp [Fn.sig, (axisOk_iff _ _).2 h]

/-- The types of dot product, length, distance, squared distance and normalisation: dimensions `D·DR`, `D`, `D`, `D²` and none. -/
theorem C31_product_types (n : Nat) (tys : List (Ty E)) (t : Ty E) :
    ((Fn.dot).sig n tys = some t ↔ ∃ s d dr p, s.isVector = true ∧ tys = [.quantity s d, .quantity s dr] ∧ DimVal.add d dr = some p ∧
      t = .quantity s.base.storage p) ∧
    ((Fn.length).sig n tys = some t ↔ ∃ s d, s.isVector = true ∧ tys = [.quantity s d] ∧ t = .quantity s.base.storage d) ∧
    ((Fn.distance).sig n tys = some t ↔ ∃ s d, s.isVector = true ∧ tys = [.quantity s d, .quantity s d] ∧ t = .quantity s.base.storage d) ∧
    ((Fn.distanceSquared).sig n tys = some t ↔ ∃ s d p, s.isVector = true ∧ tys = [.quantity s d, .quantity s d] ∧
      DimVal.mul d 2 = some p ∧ t = .quantity s.base.storage p) ∧
    ((Fn.normalize).sig n tys = some t ↔ ∃ s d, s.isVector = true ∧ tys = [.quantity s d] ∧ t = .quantity s (DimVal.none n)) := by
  refine ⟨?_, ?_, ?_, ?_, ?_⟩
  all_goals constructor
  · intro h
    simp only [Fn.sig] at h
    split at h <;> [skip; cases h]
    split at h <;> [skip; cases h]
    rename_i hc
    simp only [Bool.and_eq_true, decide_eq_true_eq] at hc
    obtain ⟨h1, rfl⟩ := hc
    rw [Option.map_eq_some_iff] at h
    obtain ⟨p, hp, rfl⟩ := h
    exact ⟨_, _, _, p, h1, rfl, hp, rfl⟩
  · rintro ⟨s, d, dr, p, h, rfl, hp, rfl⟩
    simp [Fn.sig, h, hp]
  · intro h
    simp only [Fn.sig] at h
    split at h <;> [skip; cases h]
    split at h <;> [skip; cases h]
    injection h with h
    exact ⟨_, _, by assumption, rfl, h.symm⟩
  · rintro ⟨s, d, h, rfl, rfl⟩
    simp [Fn.sig, h]
  · intro h
    simp only [Fn.sig] at h
    split at h <;> [skip; cases h]
    split at h <;> [skip; cases h]
    rename_i hc
    simp only [Bool.and_eq_true, decide_eq_true_eq] at hc
    obtain ⟨h1, rfl, rfl⟩ := hc
    injection h with h
    exact ⟨_, _, h1, rfl, h.symm⟩
  · rintro ⟨s, d, h, rfl, rfl⟩
    simp [Fn.sig, h]
  · intro h
    simp only [Fn.sig] at h
    split at h <;> [skip; cases h]
    split at h <;> [skip; cases h]
    rename_i hc
    simp only [Bool.and_eq_true, decide_eq_true_eq] at hc
    obtain ⟨h1, rfl, rfl⟩ := hc
    rw [Option.map_eq_some_iff] at h
    obtain ⟨p, hp, rfl⟩ := h
    exact ⟨_, _, p, h1, rfl, hp, rfl⟩
  · rintro ⟨s, d, p, h, rfl, hp, rfl⟩
    simp [Fn.sig, h, hp]
  · intro h
    simp only [Fn.sig] at h
    split at h <;> [skip; cases h]
    split at h <;> [skip; cases h]
    injection h with h
    exact ⟨_, _, by assumption, rfl, h.symm⟩
  · rintro ⟨s, d, h, rfl, rfl⟩
    simp [Fn.sig, h]

/-! ## Components -/

/-- The accessor of an axis returns that component. -/
theorem C31_get (n : Nat) (a : Axis) (s : Storage) (ha : a.Of s) (d : DimVal E) (r : Raw K) (hr : r.length = s.numDims) :
    ∃ x, r[a.idx]? = some x ∧ (Fn.axis a).run n [.quantity s d] [(.quantity r : Val K M)] = some (.quantity [x]) := by
  have hi : a.idx < r.length := by
    rw [hr]; have := (axisOk_iff a s).2 ha; simp [axisOk] at this; exact this.2
  refine ⟨r[a.idx], List.getElem?_eq_getElem hi, ?_⟩
  simp [Fn.run, Fn.sig, (axisOk_iff a s).2 ha, Fn.body, hi]

/-- `new(x, y)` and `new(x, y, z)` have exactly the given components, in that order, and the accessors return them. -/
theorem C31_new (n : Nat) (s : Storage) (hs : s.isVector = true) (d : DimVal E) (xs : Raw K) (hx : xs.length = s.numDims) :
    (Fn.vnew s).run n (List.replicate s.numDims (.quantity s.base.storage d)) (xs.map fun x => (.quantity [x] : Val K M)) =
      some (.quantity xs) := by
  have hsig := ((C31_types n .x s (List.replicate s.numDims (.quantity s.base.storage d)) (.quantity s d)).1.2 ⟨hs, d, rfl, rfl⟩)
  simp only [Fn.run, hsig, Option.isNone_some, Bool.false_eq_true, if_false]
  cases s <;> first | (cases hs; done) | skip
  all_goals
    simp only [Storage.numDims] at hx
    match xs, hx with
    | [_, _], _ => rfl
    | [_, _, _], _ => rfl

/-- Setting a component stores the new value in that component and leaves every other component as it was. -/
theorem C31_set (n : Nat) (a : Axis) (s : Storage) (ha : a.Of s) (d : DimVal E) (r : Raw K) (hr : r.length = s.numDims) (x : K) :
    ∃ r', (Fn.setAxis a).run n [.quantity s d, .quantity s.base.storage d] [(.quantity r : Val K M), .quantity [x]] = some (.quantity r') ∧
      r'.length = s.numDims ∧ r'[a.idx]? = some x ∧ ∀ i, i ≠ a.idx → r'[i]? = r[i]? := by
  have hi : a.idx < r.length := by
    rw [hr]; have := (axisOk_iff a s).2 ha; simp [axisOk] at this; exact this.2
  refine ⟨r.set a.idx x, ?_, by simpa using hr, by simp [hi], fun i h => ?_⟩
  · simp [Fn.run, Fn.sig, (axisOk_iff a s).2 ha, Fn.body]
  · rw [List.getElem?_set_ne (Ne.symm h)]

/-- Reading back what was set: the set component is the new value, all others are unchanged. -/
theorem C31_set_get (n : Nat) (a b : Axis) (s : Storage) (ha : a.Of s) (hb : b.Of s) (d : DimVal E) (r : Raw K)
    (hr : r.length = s.numDims) (x : K) {v : Val K M}
    (h : (Fn.setAxis a).run n [.quantity s d, .quantity s.base.storage d] [.quantity r, .quantity [x]] = some v) :
    (Fn.axis b).run n [.quantity s d] [v] =
      if b = a then some (.quantity [x]) else (Fn.axis b).run n [.quantity s d] [(.quantity r : Val K M)] := by
  obtain ⟨r', h1, h2, h3, h4⟩ := C31_set (M := M) n a s ha d r hr x
  rw [h1] at h; injection h with h; subst h
  obtain ⟨y, hy, e⟩ := C31_get (M := M) n b s hb d r' h2
  obtain ⟨z, hz, e'⟩ := C31_get (M := M) n b s hb d r hr
  rw [e, e']
  split
  · rename_i hab; subst hab; rw [h3] at hy; injection hy with hy; rw [hy]
  · rename_i hab
    have : b.idx ≠ a.idx := by intro hc; apply hab; cases a <;> cases b <;> first | rfl | cases hc
    rw [h4 _ this] at hy; rw [hy] at hz; injection hz with hz; rw [hz]

/-- `new_x(q)`, `new_y(q)`, `new_z(q)`: `q` times the unit vector of the axis, component by component. -/
theorem C31_new_axis (n : Nat) (a : Axis) (s : Storage) (ha : a.Of s) (d : DimVal E) (x : K) :
    ∃ r, (Fn.newAxis a s).run n [.quantity s.base.storage d] [(.quantity [x] : Val K M)] = some (.quantity r) ∧ r.length = s.numDims ∧
      ∀ i, i < s.numDims → r[i]? =
        some (Prims.mul M s.base x (if i = a.idx then Prims.one M s.base else Prims.zero M s.base)) := by
  have hsig := ((C31_types n a s [.quantity s.base.storage d] (.quantity s d)).2.1.2 ⟨ha, d, rfl, rfl⟩)
  refine ⟨(axisRaw M a s).map (Prims.mul M s.base x), ?_, by simp [axisRaw], fun i hi => by simp [axisRaw, hi]⟩
  simp only [Fn.run, hsig, Option.isNone_some, Bool.false_eq_true, if_false, Fn.body]
  exact mulAxis_run (hv := ha.1) ..

/-- `dot`, on any number type: the products of the components, added from left to right. -/
theorem C31_dot (n : Nat) (s : Storage) (hs : s.isVector = true) {d dr p : DimVal E} (hp : DimVal.add d dr = some p) {r r' : Raw K}
    (hr : r.length = s.numDims) (hr' : r'.length = s.numDims) :
    ∃ x y rest, List.zipWith (Prims.mul M s.base) r r' = x :: y :: rest ∧
      (Fn.dot).run n [.quantity s d, .quantity s dr] [(.quantity r : Val K M), .quantity r'] =
        some (.quantity [(y :: rest).foldl (Prims.add M s.base) x]) := by
  have hsig := ((C31_product_types n [.quantity s d, .quantity s dr] (.quantity s.base.storage p)).1.2 ⟨s, d, dr, p, hs, rfl, hp, rfl⟩)
  simp only [Fn.run, hsig, Option.isNone_some, Bool.false_eq_true, if_false, Fn.body, storageOf, Option.getD_some]
  cases s <;> first | (cases hs; done) | skip
  all_goals
    simp only [Storage.numDims] at hr hr'
    match r, r', hr, hr' with
    | [_, _], [_, _], _, _ => exact ⟨_, _, _, rfl, rfl⟩
    | [_, _, _], [_, _, _], _, _ => exact ⟨_, _, _, rfl, rfl⟩

/-- Component-wise minimum and maximum of vectors. -/
theorem C31_min_max (n : Nat) (s : Storage) (hs : s.isVector = true) (d : DimVal E) (r r' : Raw K) :
    (Fn.min).run n [.quantity s d, .quantity s d] [(.quantity r : Val K M), .quantity r'] =
      some (.quantity (List.zipWith (Prims.min M s.base) r r')) ∧
    (Fn.max).run n [.quantity s d, .quantity s d] [(.quantity r : Val K M), .quantity r'] =
      some (.quantity (List.zipWith (Prims.max M s.base) r r')) := by
  have hf : s.isFloat = false := by simpa [Storage.isVector] using hs
  constructor <;> simp [Fn.run, Fn.sig, hf, Fn.body, Val.into0, storageOf]

/-! ## Exact arithmetic -/
section
variable [IdealFns]

theorem foldl_add_eq_sum (l : List ℝ) (a : ℝ) : l.foldl (fun x y => x + y) a = a + l.sum := by
  induction l generalizing a with
  | nil => simp
  | cons x l ih => simp [ih, add_assoc]

theorem rawDot_real (t : FloatTy) (r r' : List ℝ) (h : r.length = r'.length) (hp : 0 < r.length) :
    rawDot ℝ t r r' = some ((List.zipWith (· * ·) r r').sum) := by
  match r, r', h, hp with
  | x :: r, y :: r', _, _ =>
    simp only [rawDot, List.zipWith_cons_cons, List.sum_cons]
    rw [← foldl_add_eq_sum]; rfl

theorem sum_sq_nonneg (r : List ℝ) : 0 ≤ (r.map (· ^ 2)).sum := by
  apply List.sum_nonneg; simp only [List.mem_map]; rintro x ⟨y, _, rfl⟩; positivity

theorem zipWith_self_sq (r : List ℝ) : List.zipWith (· * ·) r r = r.map (· ^ 2) := by
  induction r with
  | nil => rfl
  | cons x r ih => simp [ih, sq]

theorem rawLength_real (t : FloatTy) (r : List ℝ) (hp : 0 < r.length) :
    rawLength ℝ t r = some (Real.sqrt ((r.map (· ^ 2)).sum)) := by
  rw [rawLength, rawDot_real t r r rfl hp, zipWith_self_sq]; rfl

/-- In exact arithmetic `new_x` and so on give the vector with `q` on that axis and zero elsewhere. -/
theorem C31_new_axis_exact (n : Nat) (a : Axis) (s : Storage) (ha : a.Of s) (d : DimVal E) (x : ℝ) :
    ∃ r, (Fn.newAxis a s).run n [.quantity s.base.storage d] [(.quantity [x] : Val ℝ ℝ)] = some (.quantity r) ∧ r.length = s.numDims ∧
      ∀ i, i < s.numDims → r[i]? = some (if i = a.idx then x else 0) := by
  obtain ⟨r, h1, h2, h3⟩ := C31_new_axis (M := ℝ) n a s ha d x
  refine ⟨r, h1, h2, fun i hi => ?_⟩
  rw [h3 i hi]
  split <;> simp [Prims.mul, Prims.one, Prims.zero]

/-- In exact arithmetic: the dot product is the sum of the products, `length` the Euclidean length, `distance` the Euclidean length of the
difference and `distance_squared` its square. -/
theorem C31_lengths_exact (n : Nat) (s : Storage) (hs : s.isVector = true) {d dr p p2 : DimVal E} (hp : DimVal.add d dr = some p)
    (hp2 : DimVal.mul d 2 = some p2) {r r' : List ℝ} (hr : r.length = s.numDims) (hr' : r'.length = s.numDims) :
    (Fn.dot).run n [.quantity s d, .quantity s dr] [(.quantity r : Val ℝ ℝ), .quantity r'] =
      some (.quantity [(List.zipWith (· * ·) r r').sum]) ∧
    (Fn.length).run n [.quantity s d] [(.quantity r : Val ℝ ℝ)] = some (.quantity [√(r.map (· ^ 2)).sum]) ∧
    (Fn.distance).run n [.quantity s d, .quantity s d] [(.quantity r : Val ℝ ℝ), .quantity r'] =
      some (.quantity [√((List.zipWith (· - ·) r r').map (· ^ 2)).sum]) ∧
    (Fn.distanceSquared).run n [.quantity s d, .quantity s d] [(.quantity r : Val ℝ ℝ), .quantity r'] =
      some (.quantity [((List.zipWith (· - ·) r r').map (· ^ 2)).sum]) := by
  have h0 : 0 < s.numDims := Storage.numDims_pos s
  have hz : (List.zipWith (fun x y : ℝ => x - y) r r').length = s.numDims := by simp [hr, hr']
  refine ⟨?_, ?_, ?_, ?_⟩
  · simp [Fn.run, Fn.sig, hs, hp, Fn.body, storageOf, rawDot_real _ r r' (hr.trans hr'.symm) (hr ▸ h0)]
  · simp [Fn.run, Fn.sig, hs, Fn.body, storageOf, rawLength_real _ r (hr ▸ h0)]
  · have := rawLength_real s.base (List.zipWith (fun x y : ℝ => x - y) r r') (hz ▸ h0)
    simp only [Fn.run, Fn.sig, hs, Fn.body, storageOf]
    simp only [Bool.true_and, and_self, decide_true, if_true, Option.isNone_some, Bool.false_eq_true, if_false, Option.getD_some]
    exact congrArg (Option.map fun x => Val.quantity [x]) this
  · have := rawDot_real s.base (List.zipWith (fun x y : ℝ => x - y) r r') _ rfl (hz ▸ h0)
    rw [zipWith_self_sq] at this
    simp only [Fn.run, Fn.sig, hs, Fn.body, storageOf, hp2]
    simp only [Bool.true_and, and_self, decide_true, if_true, Option.map_some, Option.isNone_some, Bool.false_eq_true, if_false, Option.getD_some]
    exact congrArg (Option.map fun x => Val.quantity [x]) this

/-- In exact arithmetic, normalising a non-zero vector divides it by its length, and the result has length one. -/
theorem C31_normalize_exact (n : Nat) (s : Storage) (hs : s.isVector = true) (d : DimVal E) {r : List ℝ} (hr : r.length = s.numDims)
    (hnz : ∃ x ∈ r, x ≠ 0) :
    ∃ l r', 0 < l ∧ (Fn.length).run n [.quantity s d] [(.quantity r : Val ℝ ℝ)] = some (.quantity [l]) ∧
      (Fn.normalize).run n [.quantity s d] [(.quantity r : Val ℝ ℝ)] = some (.quantity r') ∧ r' = r.map (· / l) ∧
      (Fn.length).run n [.quantity s (DimVal.none n : DimVal E)] [(.quantity r' : Val ℝ ℝ)] = some (.quantity [1]) := by
  have h0 : 0 < s.numDims := Storage.numDims_pos s
  have hpos : 0 < (r.map (· ^ 2)).sum := by
    obtain ⟨x, hx, hne⟩ := hnz
    have hle : x ^ 2 ≤ (r.map (· ^ 2)).sum :=
      List.single_le_sum (by simp only [List.mem_map]; rintro y ⟨z, _, rfl⟩; positivity) _ (List.mem_map_of_mem hx)
    have : 0 < x ^ 2 := by positivity
    linarith
  have hl : 0 < √(r.map (· ^ 2)).sum := Real.sqrt_pos.2 hpos
  refine ⟨√(r.map (· ^ 2)).sum, r.map (· / √(r.map (· ^ 2)).sum), hl, ?_, ?_, rfl, ?_⟩
  · simp [Fn.run, Fn.sig, hs, Fn.body, storageOf, rawLength_real _ r (hr ▸ h0)]
  · simp only [Fn.run, Fn.sig, hs, Fn.body, storageOf, if_true, Option.isNone_some, Bool.false_eq_true, if_false, Option.getD_some,
      rawLength_real _ r (hr ▸ h0), Option.map_some]
    congr 2
    apply List.map_congr_left
    intro x _
    show x * (1 / _) = _
    rw [mul_one_div]
  · simp only [Fn.run, Fn.sig, hs, Fn.body, storageOf, if_true, Option.isNone_some, Bool.false_eq_true, if_false, Option.getD_some]
    rw [rawLength_real _ _ (by simpa [hr] using h0)]
    have : ((r.map (· / √(r.map (· ^ 2)).sum)).map (· ^ 2)).sum = 1 := by
      rw [List.map_map]
      have e : ((fun x : ℝ => x ^ 2) ∘ fun x => x / √(r.map (· ^ 2)).sum) = fun x => x ^ 2 * ((r.map (· ^ 2)).sum)⁻¹ := by
        funext x
        rw [Function.comp_apply, div_pow, Real.sq_sqrt hpos.le, div_eq_mul_inv]
      rw [e, List.sum_map_mul_right, mul_inv_cancel₀ hpos.ne']
    rw [this]; simp

end

/-- Non-vacuity: a three-component vector in a system with two base dimensions; accessor, mutation and dot product. -/
example [IdealFns] : (Fn.axis .z).run 2 [.quantity .dvec3 ([1, 0] : DimVal Int)] [(.quantity [3, 4, 12] : Val ℝ ℝ)] = some (.quantity [12]) ∧
    (Fn.length).run 2 [.quantity .dvec3 ([1, 0] : DimVal Int)] [(.quantity [3, 4, 12] : Val ℝ ℝ)] = some (.quantity [13]) ∧
    (Fn.dot).sig 2 [.quantity .dvec3 ([1, 0] : DimVal Int), .quantity .dvec3 [0, 2]] = some (.quantity .f64 [1, 2]) := by
  refine ⟨rfl, ?_, by decide +kernel⟩
  have := (C31_lengths_exact 2 .dvec3 rfl (d := ([1, 0] : DimVal Int)) (dr := [0, 2]) (p := [1, 2]) (p2 := [2, 0]) (by decide +kernel) (by decide +kernel)
    (r := [3, 4, 12]) (r' := [0, 0, 0]) rfl rfl).2.1
  rw [this]
  have : (([3, 4, 12] : List ℝ).map (· ^ 2)).sum = 13 ^ 2 := by norm_num
  rw [this, Real.sqrt_sq (by norm_num)]

end Diman
