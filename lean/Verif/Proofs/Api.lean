import Verif.Proofs.Operators
/-!
# Type soundness of the generated functions
-/
set_option linter.unusedSectionVars false
set_option linter.unusedSimpArgs false
set_option linter.unnecessarySimpa false
namespace Diman
variable {E : Type} [FieldOps E] [DecidableEq E] {K M : Type} [Prims K M]

theorem Storage.numDims_pos (s : Storage) : 0 < s.numDims := by cases s <;> decide
theorem Storage.numDims_float {s : Storage} (h : s.isFloat = true) : s.numDims = 1 := by cases s <;> simp_all [isFloat, numDims]
theorem Storage.numDims_base (s : Storage) : s.base.storage.numDims = 1 := by cases s <;> rfl
theorem Storage.base_isFloat (s : Storage) : s.base.storage.isFloat = true := by cases s <;> rfl
theorem Storage.base_base (s : Storage) : s.base.storage.base = s.base := by cases s <;> rfl
theorem Storage.float_base {s : Storage} (h : s.isFloat = true) : s.base.storage = s := by cases s <;> simp_all [isFloat, base, FloatTy.storage]

theorem hasTy_quantity {v : Val K M} {s : Storage} {d : DimVal E} :
    v.HasTy (.quantity s d) ↔ ∃ r, v = .quantity r ∧ r.length = s.numDims := by
  cases v <;> simp [Val.HasTy]
theorem hasTy_bare {v : Val K M} {s : Storage} : v.HasTy (.bare s : Ty E) ↔ ∃ r, v = .bare r ∧ r.length = s.numDims := by
  cases v <;> simp [Val.HasTy]
theorem hasTy_unit {v : Val K M} {d : DimVal E} : v.HasTy (.unit d) ↔ ∃ m, v = .unit m := by cases v <;> simp [Val.HasTy]
theorem hasTy_runtimeUnit {v : Val K M} {d : DimVal E} : v.HasTy (.runtimeUnit d) ↔ ∃ m, v = .runtimeUnit m := by
  cases v <;> simp [Val.HasTy]

theorem rawLen_float {s : Storage} (h : s.isFloat = true) {r : Raw K} (hr : r.length = s.numDims) : ∃ x, r = [x] := by
  rw [Storage.numDims_float h] at hr
  exact List.length_eq_one_iff.1 hr

/-- Componentwise arithmetic keeps the number of components. -/
theorem Raw.zip_some {f : K → K → K} {sl sr s : Storage} {t : Trait} (h : storageOut t sl sr = some s) {a b : Raw K}
    (ha : a.length = sl.numDims) (hb : b.length = sr.numDims) : ∃ c, Raw.zip f sl sr a b = some c ∧ c.length = s.numDims := by
  unfold Raw.zip
  by_cases hl : sl.isFloat = true
  · obtain ⟨x, rfl⟩ := rawLen_float hl ha
    have : sr.numDims = s.numDims := by
      revert h hl; cases t <;> cases sl <;> cases sr <;> simp [storageOut, Storage.isFloat, Storage.isVector, Storage.base, FloatTy.storage] <;>
        (try rintro rfl) <;> simp [Storage.numDims]
    simp [hl, hb, this]
  · by_cases hr : sr.isFloat = true
    · obtain ⟨y, rfl⟩ := rawLen_float hr hb
      have : sl.numDims = s.numDims := by
        revert h hl hr; cases t <;> cases sl <;> cases sr <;> simp [storageOut, Storage.isFloat, Storage.isVector, Storage.base, FloatTy.storage] <;>
          (try rintro rfl) <;> simp [Storage.numDims]
      simp [hl, hr, ha, this]
    · have : sl.numDims = s.numDims ∧ sr.numDims = s.numDims := by
        revert h hl hr; cases t <;> cases sl <;> cases sr <;> simp [storageOut, Storage.isFloat, Storage.isVector, Storage.base, FloatTy.storage] <;>
          (try rintro rfl) <;> simp [Storage.numDims]
      simp [hl, hr, ha, hb, this.1, this.2]

/-- The primitive operators on operands of the right sizes succeed. -/
theorem rawOp_some {t : Trait} {sl sr s : Storage} (h : storageOut t sl sr = some s) {a b : Raw K}
    (ha : a.length = sl.numDims) (hb : b.length = sr.numDims) :
    ∃ x, rawOp M t sl sr a b = some x ∧ ∀ r, x = .raw r → r.length = s.numDims := by
  unfold rawOp
  simp only [h, Option.isNone_some]
  cases t
  case partialEq => exact ⟨_, rfl, by simp⟩
  case partialOrd =>
    have hf : sl = sr ∧ sl.isFloat = true := by
      simp only [storageOut] at h
      split at h
      · assumption
      · cases h
    obtain ⟨x, rfl⟩ := rawLen_float hf.2 ha
    obtain ⟨y, rfl⟩ := rawLen_float (hf.1 ▸ hf.2) hb
    exact ⟨_, rfl, by simp⟩
  all_goals
    simp only [Bool.false_eq_true, if_false]
    obtain ⟨c, hc, hlen⟩ := Raw.zip_some (f := arith M _ sl.base) h ha hb
    exact ⟨.raw c, by rw [hc]; rfl, by rintro r ⟨⟩; exact hlen⟩

theorem storageOut_left {t : Trait} {sl sr s : Storage} (h : storageOut t sl sr = some s) (ht : t.hasOutput = false) : s = sl := by
  cases t <;> simp only [Trait.hasOutput, reduceCtorEq] at ht <;> simp only [storageOut] at h <;>
    (split at h <;> [skip; (try split at h)]) <;> simp_all

/-- The type of the value an operator application returns (a compound assignment returns the new left operand). -/
def OpOut.ty (l : Ty E) : OpOut E → Ty E
  | .value t => t
  | .updated => l
  | .bool => .bool
  | .ordering => .ordering

theorem hasTy_wrap {o : OperatorTrait} {i : Inst E} {l r : OpTy E} {out : OpOut E} (h : o.Typed i l r out) {a b : Val K M}
    (ha : a.HasTy l.ty) (hb : b.HasTy r.ty) :
    ∃ x y, a = o.lhs.wrap x ∧ b = o.rhs.wrap y ∧ x.length = (i.st o.storageTypes.1).numDims ∧ y.length = (i.st o.storageTypes.2).numDims := by
  obtain ⟨-, -, hl, hr, -⟩ := h
  have aux : ∀ (p : Operand) (st : StName) (dim : Option DimName) (t : Ty E) (v : Val K M), typeForOperand i p st dim = some t →
      v.HasTy t → ∃ x, v = p.wrap x ∧ x.length = (i.st st).numDims := by
    intro p st dim t v ht hv
    obtain ⟨k, sp, rf⟩ := p
    cases k
    · simp only [typeForOperand, Option.map_eq_some_iff] at ht
      obtain ⟨d, -, rfl⟩ := ht
      exact hasTy_quantity.1 hv
    · simp only [typeForOperand, Option.some.injEq] at ht
      subst ht
      exact hasTy_quantity.1 hv
    · simp only [typeForOperand, Option.some.injEq] at ht
      subst ht
      exact hasTy_bare.1 hv
  obtain ⟨x, hx, hx'⟩ := aux _ _ _ _ _ hl ha
  obtain ⟨y, hy, hy'⟩ := aux _ _ _ _ _ hr hb
  exact ⟨x, y, hx, hy, hx', hy'⟩

/-- A well-typed operator application runs without error and returns a value of its type. -/
theorem op_sound {ss : List Storage} {o : OperatorTrait} (ho : o ∈ iterNumericTraits ss) {i : Inst E} {l r : OpTy E} {out : OpOut E}
    (h : o.Typed i l r out) {a b : Val K M} (ha : a.HasTy l.ty) (hb : b.HasTy r.ty) :
    ∃ v, o.run (i.st o.storageTypes.1) (i.st o.storageTypes.2) a b = some v ∧ v.HasTy (out.ty l.ty) := by
  obtain ⟨x, y, rfl, rfl, hx, hy⟩ := hasTy_wrap h ha hb
  rw [table_run ho]
  obtain ⟨sl, sr, s, e1, e2, hst, hcase⟩ := typed_inv ho h
  rw [e1] at hx ⊢; rw [e2] at hy ⊢
  obtain ⟨z, hz, hlen⟩ := rawOp_some (M := M) hst hx hy
  refine ⟨_, by rw [hz]; rfl, ?_⟩
  have hk := rawOp_kind hz
  have hlen' := storageOut_left hst
  clear ho h ha hb
  obtain ⟨t, ⟨lk, lst, lr⟩, ⟨rk, rst, rr⟩⟩ := o
  obtain ⟨lref, lty⟩ := l
  simp only at hst hk hlen' hcase ⊢
  rcases hcase with ⟨dl, dr, d, rfl, rfl, rfl, hr, ⟨rfl, -⟩ | ⟨rfl, -⟩, rfl⟩ |
    ⟨d, rfl, rfl, rfl, hr, ⟨rfl | rfl, rfl⟩ | ⟨rfl | rfl, rfl⟩ | ⟨rfl, rfl⟩ | ⟨rfl, rfl⟩⟩ |
    ⟨d, rfl, kr, rfl, hr, rfl | rfl, rfl⟩ | ⟨d, rfl, rfl, rfl, hr, rfl | rfl, rfl⟩ |
    ⟨d, d', rfl, rfl, rfl, hr, ⟨rfl, -⟩ | ⟨rfl, -⟩, rfl⟩ |
    ⟨⟨rfl, rfl, rfl, hr⟩ | ⟨rfl, rfl, rfl, hr⟩, ⟨rfl | rfl, rfl⟩ | ⟨rfl | rfl, rfl⟩ | ⟨rfl, rfl⟩ | ⟨rfl, rfl⟩ | ⟨-, rfl | rfl, rfl⟩⟩ <;>
    obtain ⟨v, rfl⟩ := hk <;>
    simp [OperatorTrait.result, OpOut.ty, Trait.hasOutput, Operand.wrap, Val.HasTy, hlen v rfl] <;>
    rw [hlen' (by simp [Trait.hasOutput])]

/-! ## Functions -/

theorem args0 {args : List (Val K M)} : ArgsHaveTy args ([] : List (Ty E)) ↔ args = [] := by simp [ArgsHaveTy]
theorem args1 {args : List (Val K M)} {t : Ty E} : ArgsHaveTy args [t] ↔ ∃ v, args = [v] ∧ v.HasTy t := by
  unfold ArgsHaveTy
  constructor
  · intro h; cases h with | cons h h' => cases h'; exact ⟨_, rfl, h⟩
  · rintro ⟨v, rfl, h⟩; exact .cons h .nil
theorem args2 {args : List (Val K M)} {t u : Ty E} : ArgsHaveTy args [t, u] ↔ ∃ v w, args = [v, w] ∧ v.HasTy t ∧ w.HasTy u := by
  unfold ArgsHaveTy
  constructor
  · intro h; cases h with | cons h h' => cases h' with | cons h' h'' => cases h''; exact ⟨_, _, rfl, h, h'⟩
  · rintro ⟨v, w, rfl, h, h'⟩; exact .cons h (.cons h' .nil)
theorem args3 {args : List (Val K M)} {t u w : Ty E} : ArgsHaveTy args [t, u, w] ↔
    ∃ x y z, args = [x, y, z] ∧ x.HasTy t ∧ y.HasTy u ∧ z.HasTy w := by
  unfold ArgsHaveTy
  constructor
  · intro h
    cases h with | cons h h' => cases h' with | cons h' h'' => cases h'' with | cons h'' h3 => cases h3; exact ⟨_, _, _, rfl, h, h', h''⟩
  · rintro ⟨x, y, z, rfl, h, h', h''⟩; exact .cons h (.cons h' (.cons h'' .nil))

theorem addAssign_run {s : Storage} {a b : Raw K} (ha : a.length = s.numDims) (hb : b.length = s.numDims) :
    (⟨.addAssign, qG, qG⟩ : OperatorTrait).run s s (.quantity a : Val K M) (.quantity b) =
      some (.quantity (List.zipWith (Prims.add M s.base) a b)) := by
  have h := table_run (K := K) (M := M) (ss := []) (o := ⟨.addAssign, qG, qG⟩) (by decide) s s a b
  rw [show (qG.wrap a : Val K M) = .quantity a from rfl, show (qG.wrap b : Val K M) = .quantity b from rfl] at h
  rw [h]
  unfold rawOp Raw.zip
  by_cases hf : s.isFloat = true
  · obtain ⟨x, rfl⟩ := rawLen_float hf ha
    obtain ⟨y, rfl⟩ := rawLen_float hf hb
    simp [storageOut, hf, arith, OperatorTrait.result, Trait.hasOutput, qG, Operand.wrap]
  · simp [storageOut, hf, arith, OperatorTrait.result, Trait.hasOutput, qG, Operand.wrap]

/-- The summation loop is a left fold of componentwise addition. -/
theorem sumLoop_eq {s : Storage} (rs : List (Raw K)) (hrs : ∀ r ∈ rs, r.length = s.numDims) (a : Raw K) (ha : a.length = s.numDims) :
    sumLoop s (.quantity a : Val K M) (rs.map .quantity) = some (.quantity (rs.foldl (List.zipWith (Prims.add M s.base)) a)) ∧
      (rs.foldl (List.zipWith (Prims.add M s.base)) a).length = s.numDims := by
  induction rs generalizing a with
  | nil => exact ⟨rfl, ha⟩
  | cons r rs ih =>
    have hr := hrs r (by simp)
    simp only [List.map_cons, sumLoop, addAssign_run ha hr, List.foldl_cons]
    exact ih (fun r h => hrs r (by simp [h])) _ (by simp [ha, hr])

theorem argsHaveTy_all_quantity {s : Storage} {d : DimVal E} {tys : List (Ty E)} (ht : ∀ t ∈ tys, t = .quantity s d)
    {args : List (Val K M)} (h : ArgsHaveTy args tys) : ∃ rs : List (Raw K), args = rs.map .quantity ∧ ∀ r ∈ rs, r.length = s.numDims := by
  unfold ArgsHaveTy at h
  induction h with
  | nil => exact ⟨[], rfl, by simp⟩
  | cons h h' ih =>
    obtain ⟨rs, rfl, hrs⟩ := ih (fun t ht' => ht t (by simp [ht']))
    have := ht _ (List.mem_cons_self ..)
    subst this
    obtain ⟨r, rfl, hr⟩ := hasTy_quantity.1 h
    exact ⟨r :: rs, rfl, by simpa [hr] using hrs⟩

theorem zeroRaw_length (s : Storage) : (zeroRaw M s : Raw K).length = s.numDims := by simp [zeroRaw]

theorem mulAxis_run {s : Storage} (hv : s.isVector = true) {x : K} {b : Raw K} :
    (⟨.mul, qG, sC s⟩ : OperatorTrait).run s.base.storage s (.quantity [x] : Val K M) (.bare b) =
      some (.quantity (b.map (Prims.mul M s.base x))) := by
  have h := table_run (K := K) (M := M) (ss := [s]) (o := ⟨.mul, qG, sC s⟩) (by cases s <;> decide) s.base.storage s [x] b
  rw [show (qG.wrap [x] : Val K M) = .quantity [x] from rfl, show ((sC s).wrap b : Val K M) = .bare b from rfl] at h
  rw [h]
  have e : storageOut .mul s.base.storage s = some s := by cases s <;> simp_all [storageOut, Storage.isVector, Storage.isFloat, Storage.base, FloatTy.storage]
  simp [rawOp, Raw.zip, e, Storage.base_isFloat, arith, Storage.base_base, OperatorTrait.result, Trait.hasOutput]

theorem rawDot_some {t : FloatTy} {a b : Raw K} (h : a.length = b.length) (h0 : 0 < b.length) : ∃ x, rawDot M t a b = some x := by
  obtain ⟨x, xs, rfl⟩ := List.exists_cons_of_length_pos (h ▸ h0)
  obtain ⟨y, ys, rfl⟩ := List.exists_cons_of_length_pos h0
  exact ⟨_, rfl⟩

theorem into0_of {n : Nat} {s : Storage} {d : DimVal E} {t : Ty E} (h : intoQuantityOk n s d t = true) {v : Val K M} (hv : v.HasTy t) :
    ∃ r, v.into0 = some r ∧ r.length = s.numDims := by
  cases t <;> simp only [intoQuantityOk, Bool.and_eq_true, decide_eq_true_eq, Bool.false_eq_true] at h
  · obtain ⟨r, rfl, hr⟩ := hasTy_quantity.1 hv
    exact ⟨r, rfl, by rw [hr, h.1]⟩
  · obtain ⟨r, rfl, hr⟩ := hasTy_bare.1 hv
    exact ⟨r, rfl, by rw [hr, h.1]⟩

set_option hygiene false in
local macro "q1" : tactic => `(tactic| (obtain ⟨_, rfl, hv⟩ := args1.1 ha; obtain ⟨r, rfl, hr⟩ := hasTy_quantity.1 hv))
set_option hygiene false in
local macro "b1" : tactic => `(tactic| (obtain ⟨_, rfl, hv⟩ := args1.1 ha; obtain ⟨r, rfl, hr⟩ := hasTy_bare.1 hv))
set_option hygiene false in
local macro "qq" : tactic => `(tactic| (obtain ⟨_, _, rfl, hv, hw⟩ := args2.1 ha; obtain ⟨r, rfl, hr⟩ := hasTy_quantity.1 hv; obtain ⟨r', rfl, hr'⟩ := hasTy_quantity.1 hw))
set_option hygiene false in
local macro "out" : tactic => `(tactic| (injection h with h; subst h; refine .inl ⟨_, rfl, ?_⟩))
set_option hygiene false in
local macro "outD" : tactic => `(tactic| (obtain ⟨d', -, rfl⟩ := Option.map_eq_some_iff.1 h; refine .inl ⟨_, rfl, ?_⟩))

/-- A well-typed call of a generated function returns a value of the result type; the only exception is a panicking `clamp`. -/
theorem fn_sound {n : Nat} {f : Fn E} {tys : List (Ty E)} {t : Ty E} (h : f.sig n tys = some t) {args : List (Val K M)}
    (ha : ArgsHaveTy args tys) : (∃ v, f.run n tys args = some v ∧ v.HasTy t) ∨ (f = .clamp ∧ f.run n tys args = none) := by
  have hrun : f.run n tys args = f.body ((storageOf tys).getD .f64) args := by simp [Fn.run, h]
  rw [hrun]; clear hrun
  cases f <;> simp only [Fn.sig] at h
  case sum s d =>
    split at h
    · rename_i hall
      injection h with h; subst h
      obtain ⟨rs, rfl, hrs⟩ := argsHaveTy_all_quantity (by simpa using hall) ha
      obtain ⟨h1, h2⟩ := sumLoop_eq (M := M) rs hrs (zeroRaw M s) (zeroRaw_length s)
      exact .inl ⟨_, h1, h2⟩
    · cases h
  case value => split at h <;> [skip; cases h]; split at h <;> [skip; cases h]; q1; out; exact hr
  case valueRef => split at h <;> [skip; cases h]; split at h <;> [skip; cases h]; q1; out; exact hr
  case deref => split at h <;> [skip; cases h]; split at h <;> [skip; cases h]; q1; out; exact hr
  case valueUnchecked => split at h <;> [skip; cases h]; q1; out; exact hr
  case valueUncheckedRef => split at h <;> [skip; cases h]; q1; out; exact hr
  case newUnchecked => split at h <;> [skip; cases h]; b1; out; exact hr
  case «from» => split at h <;> [skip; cases h]; b1; out; exact hr
  case neg => split at h <;> [skip; cases h]; q1; out; simpa [Val.HasTy] using hr
  case abs => split at h <;> [skip; cases h]; q1; out; simpa [Val.HasTy] using hr
  case default => split at h <;> [skip; cases h]; rw [args0] at ha; subst ha; out; exact zeroRaw_length _
  case zero => split at h <;> [skip; cases h]; rw [args0] at ha; subst ha; out; exact zeroRaw_length _
  case dimensionless =>
    split at h <;> [skip; cases h]; split at h <;> [skip; cases h]; q1; rename_i hc
    simp only [Bool.and_eq_true] at hc
    obtain ⟨x, rfl⟩ := rawLen_float hc.1 hr; out; exact hr
  case powi =>
    split at h <;> [skip; cases h]; split at h <;> [skip; cases h]; q1; rename_i hc
    simp only [Bool.and_eq_true] at hc
    obtain ⟨x, rfl⟩ := rawLen_float hc.1 hr; outD; exact hr
  case squared => split at h <;> [skip; cases h]; split at h <;> [skip; cases h]; q1; rename_i hc; obtain ⟨x, rfl⟩ := rawLen_float hc hr; outD; exact hr
  case cubed => split at h <;> [skip; cases h]; split at h <;> [skip; cases h]; q1; rename_i hc; obtain ⟨x, rfl⟩ := rawLen_float hc hr; outD; exact hr
  case sqrt => split at h <;> [skip; cases h]; split at h <;> [skip; cases h]; q1; rename_i hc; obtain ⟨x, rfl⟩ := rawLen_float hc hr; outD; exact hr
  case cbrt => split at h <;> [skip; cases h]; split at h <;> [skip; cases h]; q1; rename_i hc; obtain ⟨x, rfl⟩ := rawLen_float hc hr; outD; exact hr
  case isPositive => split at h <;> [skip; cases h]; split at h <;> [skip; cases h]; q1; rename_i hc; obtain ⟨x, rfl⟩ := rawLen_float hc hr; out; trivial
  case isPositiveOrZero => split at h <;> [skip; cases h]; split at h <;> [skip; cases h]; q1; rename_i hc; obtain ⟨x, rfl⟩ := rawLen_float hc hr; out; trivial
  case isNegative => split at h <;> [skip; cases h]; split at h <;> [skip; cases h]; q1; rename_i hc; obtain ⟨x, rfl⟩ := rawLen_float hc hr; out; trivial
  case isNegativeOrZero => split at h <;> [skip; cases h]; split at h <;> [skip; cases h]; q1; rename_i hc; obtain ⟨x, rfl⟩ := rawLen_float hc hr; out; trivial
  case isNan => split at h <;> [skip; cases h]; split at h <;> [skip; cases h]; q1; rename_i hc; obtain ⟨x, rfl⟩ := rawLen_float hc hr; out; trivial
  case min =>
    split at h <;> [skip; cases h]
    obtain ⟨_, _, rfl, hv, hw⟩ := args2.1 ha
    obtain ⟨r, rfl, hr⟩ := hasTy_quantity.1 hv
    split at h
    · split at h <;> [skip; cases h]
      obtain ⟨r', h1, h2⟩ := into0_of ‹_› hw
      injection h with h; subst h
      exact .inl ⟨_, by simp [Fn.body, h1]; rfl, by simp [Val.HasTy, hr, h2]⟩
    · split at h <;> [skip; cases h]
      subst_vars
      obtain ⟨r', rfl, hr'⟩ := hasTy_quantity.1 hw
      out; simp [Val.HasTy, hr, hr']
  case max =>
    split at h <;> [skip; cases h]
    obtain ⟨_, _, rfl, hv, hw⟩ := args2.1 ha
    obtain ⟨r, rfl, hr⟩ := hasTy_quantity.1 hv
    split at h
    · split at h <;> [skip; cases h]
      obtain ⟨r', h1, h2⟩ := into0_of ‹_› hw
      injection h with h; subst h
      exact .inl ⟨_, by simp [Fn.body, h1]; rfl, by simp [Val.HasTy, hr, h2]⟩
    · split at h <;> [skip; cases h]
      subst_vars
      obtain ⟨r', rfl, hr'⟩ := hasTy_quantity.1 hw
      out; simp [Val.HasTy, hr, hr']
  case clamp =>
    split at h <;> [skip; cases h]
    split at h <;> [skip; cases h]
    rename_i hc
    simp only [Bool.and_eq_true, decide_eq_true_eq] at hc
    obtain ⟨⟨hf, hi⟩, rfl⟩ := hc
    obtain ⟨_, _, _, rfl, hv, hw, hw'⟩ := args3.1 ha
    obtain ⟨r, rfl, hr⟩ := hasTy_quantity.1 hv
    obtain ⟨x, rfl⟩ := rawLen_float hf hr
    obtain ⟨a, h1, h2⟩ := into0_of hi hw
    obtain ⟨b, h3, h4⟩ := into0_of hi hw'
    obtain ⟨a, rfl⟩ := rawLen_float hf h2
    obtain ⟨b, rfl⟩ := rawLen_float hf h4
    injection h with h; subst h
    simp only [Fn.body, h1, h3, true_and]
    cases Prims.clamp M _ x a b with
    | none => exact .inr rfl
    | some y => exact .inl ⟨_, rfl, hr⟩
  case vnew =>
    split at h
    · split at h <;> [skip; cases h]; rename_i hc
      simp only [Bool.and_eq_true, decide_eq_true_eq, beq_iff_eq] at hc
      obtain ⟨⟨-, hd⟩, rfl, rfl, rfl⟩ := hc
      qq
      obtain ⟨x, rfl⟩ := rawLen_float (Storage.base_isFloat _) hr
      obtain ⟨y, rfl⟩ := rawLen_float (Storage.base_isFloat _) hr'
      out; simp [Val.HasTy, hd]
    · split at h <;> [skip; cases h]; rename_i hc
      simp only [Bool.and_eq_true, decide_eq_true_eq, beq_iff_eq] at hc
      obtain ⟨⟨-, hd⟩, rfl, rfl, rfl, rfl, rfl⟩ := hc
      obtain ⟨_, _, _, rfl, hv, hw, hw'⟩ := args3.1 ha
      obtain ⟨r, rfl, hr⟩ := hasTy_quantity.1 hv
      obtain ⟨r', rfl, hr'⟩ := hasTy_quantity.1 hw
      obtain ⟨r'', rfl, hr''⟩ := hasTy_quantity.1 hw'
      obtain ⟨x, rfl⟩ := rawLen_float (Storage.base_isFloat _) hr
      obtain ⟨y, rfl⟩ := rawLen_float (Storage.base_isFloat _) hr'
      obtain ⟨z, rfl⟩ := rawLen_float (Storage.base_isFloat _) hr''
      out; simp [Val.HasTy, hd]
    · cases h
  case newAxis a s =>
    split at h <;> [skip; cases h]
    split at h <;> [skip; cases h]
    rename_i hc
    simp only [Bool.and_eq_true, decide_eq_true_eq, axisOk] at hc
    obtain ⟨⟨hvec, -⟩, rfl⟩ := hc
    q1
    obtain ⟨x, rfl⟩ := rawLen_float (Storage.base_isFloat _) hr
    injection h with h; subst h
    exact .inl ⟨_, mulAxis_run hvec, by simp [Val.HasTy, axisRaw]⟩
  case axis a =>
    split at h <;> [skip; cases h]
    split at h <;> [skip; cases h]
    rename_i hc
    simp only [Bool.and_eq_true, decide_eq_true_eq, axisOk] at hc
    q1
    injection h with h; subst h
    have hlt : a.idx < r.length := by rw [hr]; exact hc.2
    exact .inl ⟨_, by simp [Fn.body, List.getElem?_eq_getElem hlt]; rfl, by simp [Val.HasTy, Storage.numDims_base]⟩
  case setAxis a =>
    split at h <;> [skip; cases h]
    split at h <;> [skip; cases h]
    rename_i hc
    simp only [Bool.and_eq_true, decide_eq_true_eq, axisOk] at hc
    obtain ⟨-, rfl, rfl⟩ := hc
    qq
    obtain ⟨x, rfl⟩ := rawLen_float (Storage.base_isFloat _) hr'
    out; simp [Val.HasTy, hr]
  case length =>
    split at h <;> [skip; cases h]
    split at h <;> [skip; cases h]
    q1
    injection h with h; subst h
    obtain ⟨x, hx⟩ := rawDot_some (M := M) (t := Storage.base _) (a := r) (b := r) rfl (by rw [hr]; exact Storage.numDims_pos _)
    exact .inl ⟨_, by simp only [Fn.body, rawLength, storageOf, Option.getD_some]; rw [hx]; rfl, by simp [Val.HasTy, Storage.numDims_base]⟩
  case distance =>
    split at h <;> [skip; cases h]
    split at h <;> [skip; cases h]
    rename_i hc
    simp only [Bool.and_eq_true, decide_eq_true_eq] at hc
    obtain ⟨-, rfl, rfl⟩ := hc
    qq
    injection h with h; subst h
    rename_i s _
    obtain ⟨x, hx⟩ := rawDot_some (M := M) (t := s.base) (a := List.zipWith (Prims.sub M s.base) r r')
      (b := List.zipWith (Prims.sub M s.base) r r') rfl (by simp [hr, hr', Storage.numDims_pos])
    exact .inl ⟨_, by simp only [Fn.body, rawLength, storageOf, Option.getD_some]; rw [hx]; rfl, by simp [Val.HasTy, Storage.numDims_base]⟩
  case distanceSquared =>
    split at h <;> [skip; cases h]
    split at h <;> [skip; cases h]
    rename_i hc
    simp only [Bool.and_eq_true, decide_eq_true_eq] at hc
    obtain ⟨-, rfl, rfl⟩ := hc
    qq
    obtain ⟨d', -, rfl⟩ := Option.map_eq_some_iff.1 h
    rename_i s _
    obtain ⟨x, hx⟩ := rawDot_some (M := M) (t := s.base) (a := List.zipWith (Prims.sub M s.base) r r')
      (b := List.zipWith (Prims.sub M s.base) r r') rfl (by simp [hr, hr', Storage.numDims_pos])
    exact .inl ⟨_, by simp only [Fn.body, rawLength, storageOf, Option.getD_some]; rw [hx]; rfl, by simp [Val.HasTy, Storage.numDims_base]⟩
  case normalize =>
    split at h <;> [skip; cases h]
    split at h <;> [skip; cases h]
    q1
    injection h with h; subst h
    obtain ⟨x, hx⟩ := rawDot_some (M := M) (t := Storage.base _) (a := r) (b := r) rfl (by rw [hr]; exact Storage.numDims_pos _)
    exact .inl ⟨_, by simp only [Fn.body, rawLength, storageOf, Option.getD_some]; rw [hx]; rfl, by simp [Val.HasTy, hr]⟩
  case dot =>
    split at h <;> [skip; cases h]
    split at h <;> [skip; cases h]
    rename_i hc
    simp only [Bool.and_eq_true, decide_eq_true_eq] at hc
    obtain ⟨-, rfl⟩ := hc
    qq
    obtain ⟨d', -, rfl⟩ := Option.map_eq_some_iff.1 h
    obtain ⟨x, hx⟩ := rawDot_some (M := M) (t := Storage.base _) (a := r) (b := r') (by rw [hr, hr']) (by rw [hr']; exact Storage.numDims_pos _)
    exact .inl ⟨_, by simp only [Fn.body, storageOf, Option.getD_some]; rw [hx]; rfl, by simp [Val.HasTy, Storage.numDims_base]⟩
  all_goals
    split at h
    all_goals first
      | (cases h; done)
      | (obtain ⟨_, _, rfl, hv, hw⟩ := args2.1 ha
         simp only [hasTy_quantity, hasTy_bare, hasTy_unit, hasTy_runtimeUnit] at hv hw
         try (split at h <;> [skip; cases h])
         first
         | (obtain ⟨r, rfl, hr⟩ := hv
            obtain ⟨m, rfl⟩ := hw
            first
            | (injection h with h; subst h; exact .inl ⟨_, rfl, by simpa [Val.HasTy] using hr⟩)
            | (obtain ⟨d', -, rfl⟩ := Option.map_eq_some_iff.1 h; exact .inl ⟨_, rfl, by simpa [Val.HasTy] using hr⟩))
         | (obtain ⟨m, rfl⟩ := hv
            obtain ⟨r, rfl, hr⟩ := hw
            first
            | (injection h with h; subst h; exact .inl ⟨_, rfl, by simpa [Val.HasTy] using hr⟩)
            | (obtain ⟨d', -, rfl⟩ := Option.map_eq_some_iff.1 h; exact .inl ⟨_, rfl, by simpa [Val.HasTy] using hr⟩))
         | (obtain ⟨m, rfl⟩ := hv
            obtain ⟨m', rfl⟩ := hw
            obtain ⟨d', -, rfl⟩ := Option.map_eq_some_iff.1 h; exact .inl ⟨_, rfl, trivial⟩))

end Diman
