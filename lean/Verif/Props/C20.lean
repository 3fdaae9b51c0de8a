import Verif.Spec.Operators
import Verif.Proofs.Operators
import Verif.Proofs.Exponent
/-!
# C20 — operators between quantities are dimension-checked
`OpTyped ss n t l r out`: with storage types `ss` enabled and `n` base dimensions, `l t r` type-checks through some generated operator
implementation, with outcome `out`. Operands may be passed by value or by reference.
-/
set_option linter.unusedSectionVars false
set_option linter.unusedSimpArgs false
namespace Diman
variable {E : Type} [Exponent E] [LawfulExponent E] [FieldOps E] [LawfulFieldOps E]

/-- Addition, subtraction, their compound assignments and comparisons type-check only between operands of the same dimension, a bare
number counting as dimensionless; addition and subtraction give a quantity of that dimension, the others nothing new. -/
theorem C20_equal_dimensions {ss : List Storage} {n : Nat} {t : Trait} {l r : OpTy E} {out : OpOut E} (h : OpTyped ss n t l r out)
    (ht : t ∈ [Trait.add, .sub, .addAssign, .subAssign, .partialEq, .partialOrd]) :
    ∃ d, l.ty.dim n = some d ∧ r.ty.dim n = some d ∧
      (t = .add ∨ t = .sub → ∃ s, out = .value (.quantity s d)) ∧ (t = .addAssign ∨ t = .subAssign → out = .updated) ∧
      (t = .partialEq → out = .bool) ∧ (t = .partialOrd → out = .ordering) := by
  obtain ⟨o, ho, rfl, i, rfl, hty⟩ := h
  obtain ⟨sl, sr, s, -, -, -, hcase⟩ := typed_inv ho hty
  rcases hcase with ⟨dl, dr, d, -, -, hl, hr, hn, rfl⟩ | ⟨d, -, -, hl, hr, hn⟩ | ⟨d, -, -, hl, hr, hn, rfl⟩ | ⟨d, -, -, hl, hr, hn, rfl⟩ |
    ⟨d, d', -, -, hl, hr, hn, rfl⟩ | ⟨hk, hn⟩
  · rcases hn with ⟨hn, -⟩ | ⟨hn, -⟩ <;> simp [hn] at ht
  · refine ⟨d, by simp [hl, Ty.dim], by simp [hr, Ty.dim], ?_⟩
    rcases hn with ⟨hn | hn, rfl⟩ | ⟨hn | hn, rfl⟩ | ⟨hn, rfl⟩ | ⟨hn, rfl⟩ <;> simp [hn]
  · rcases hn with hn | hn <;> simp [hn] at ht
  · rcases hn with hn | hn <;> simp [hn] at ht
  · rcases hn with ⟨hn, -⟩ | ⟨hn, -⟩ <;> simp [hn] at ht
  · refine ⟨DimVal.none i.n, ?_, ?_, ?_⟩
    · rcases hk with ⟨-, -, hl, hr⟩ | ⟨-, -, hl, hr⟩ <;> simp [hl, Ty.dim]
    · rcases hk with ⟨-, -, hl, hr⟩ | ⟨-, -, hl, hr⟩ <;> simp [hr, Ty.dim]
    · rcases hn with ⟨hn | hn, rfl⟩ | ⟨hn | hn, rfl⟩ | ⟨hn, rfl⟩ | ⟨hn, rfl⟩ | ⟨-, hn | hn, rfl⟩ <;> simp [hn] at ht ⊢

omit [Exponent E] [LawfulExponent E] [LawfulFieldOps E] in
/-- Multiplying or dividing in place type-checks only with a dimensionless right operand, and does not change the type. -/
theorem C20_assign_dimensionless {ss : List Storage} {n : Nat} {t : Trait} {l r : OpTy E} {out : OpOut E} (h : OpTyped ss n t l r out)
    (ht : t = .mulAssign ∨ t = .divAssign) : r.ty.dim n = some (DimVal.none n) ∧ out = .updated := by
  obtain ⟨o, ho, rfl, i, rfl, hty⟩ := h
  obtain ⟨sl, sr, s, -, -, -, hcase⟩ := typed_inv ho hty
  rcases hcase with ⟨dl, dr, d, -, -, hl, hr, hn, rfl⟩ | ⟨d, -, -, hl, hr, hn⟩ | ⟨d, -, -, hl, hr, hn, rfl⟩ | ⟨d, -, -, hl, hr, hn, rfl⟩ |
    ⟨d, d', -, -, hl, hr, hn, rfl⟩ | ⟨hk, hn⟩
  · rcases hn with ⟨hn, -⟩ | ⟨hn, -⟩ <;> simp [hn] at ht
  · rcases hn with ⟨hn | hn, rfl⟩ | ⟨hn | hn, rfl⟩ | ⟨hn, rfl⟩ | ⟨hn, rfl⟩ <;> simp [hn] at ht
  · rcases hr with ⟨-, hr⟩ | ⟨-, hr⟩ <;> simp [hr, Ty.dim]
  · rcases hn with hn | hn <;> simp [hn] at ht
  · rcases hn with ⟨hn, -⟩ | ⟨hn, -⟩ <;> simp [hn] at ht
  · refine ⟨?_, ?_⟩
    · rcases hk with ⟨-, -, hl, hr⟩ | ⟨-, -, hl, hr⟩ <;> simp [hr, Ty.dim]
    · rcases hn with ⟨hn | hn, rfl⟩ | ⟨hn | hn, rfl⟩ | ⟨hn, rfl⟩ | ⟨hn, rfl⟩ | ⟨-, hn | hn, rfl⟩ <;> simp [hn] at ht ⊢

theorem zipWith_zero_left {n : Nat} {v : List ℚ} (h : v.length = n) : List.zipWith (· + ·) (List.replicate n 0) v = v := by
  subst h
  induction v with
  | nil => rfl
  | cons a v ih => simp [List.replicate_succ]; exact ih

theorem zipWith_zero_right {n : Nat} {v : List ℚ} (h : v.length = n) : List.zipWith (· + ·) v (List.replicate n 0) = v := by
  subst h
  induction v with
  | nil => rfl
  | cons a v ih => simp [List.replicate_succ]; exact ih

theorem zipWith_sub_zero {n : Nat} {v : List ℚ} (h : v.length = n) : List.zipWith (· - ·) v (List.replicate n 0) = v := by
  subst h
  induction v with
  | nil => rfl
  | cons a v ih => simp [List.replicate_succ]; exact ih

theorem zipWith_zero_sub {n : Nat} {v : List ℚ} (h : v.length = n) : List.zipWith (· - ·) (List.replicate n 0) v = v.map (- ·) := by
  subst h
  induction v with
  | nil => rfl
  | cons a v ih => simp [List.replicate_succ]; exact ih

/-- Multiplication type-checks only between quantities and numbers and gives a quantity whose exponents are the sums of the
operands' exponents. -/
theorem C20_mul {ss : List Storage} {n : Nat} {l r : OpTy E} {out : OpOut E} (h : OpTyped ss n .mul l r out)
    (hl : l.ty.WF n) (hr : r.ty.WF n) :
    ∃ dl dr d s, l.ty.dim n = some dl ∧ r.ty.dim n = some dr ∧ out = .value (.quantity s d) ∧
      d.Canonical ∧ d.vec = List.zipWith (· + ·) dl.vec dr.vec := by
  obtain ⟨o, ho, hname, i, rfl, hty⟩ := h
  obtain ⟨sl, sr, s, -, -, -, hcase⟩ := typed_inv ho hty
  rcases hcase with ⟨dl, dr, d, -, -, el, er, hn, rfl⟩ | ⟨d, -, -, el, er, hn⟩ | ⟨d, -, -, el, er, hn, rfl⟩ | ⟨d, -, -, el, er, hn, rfl⟩ |
    ⟨d, d', -, -, el, er, hn, rfl⟩ | ⟨hk, hn⟩
  · have wl := hl dl (by simp [el, Ty.dim])
    have wr := hr dr (by simp [er, Ty.dim])
    rcases hn with ⟨-, hn⟩ | ⟨hn, -⟩
    · obtain ⟨c, v, -⟩ := DimVal.add_spec wl.2 wr.2 hn
      exact ⟨dl, dr, d, s, by simp [el, Ty.dim], by simp [er, Ty.dim], rfl, c, v⟩
    · simp [hname] at hn
  · simp [hname] at hn
  · simp [hname] at hn
  · have wl := hl d (by simp [el, Ty.dim])
    refine ⟨d, DimVal.none i.n, d, s, by simp [el, Ty.dim], by simp [er, Ty.dim], rfl, wl.2, ?_⟩
    rw [DimVal.none_vec, zipWith_zero_right (by rw [DimVal.vec_length, wl.1])]
  · have wr := hr d (by simp [er, Ty.dim])
    rcases hn with ⟨-, rfl⟩ | ⟨hn, -⟩
    · refine ⟨DimVal.none i.n, d', d', s, by simp [el, Ty.dim], by simp [er, Ty.dim], rfl, wr.2, ?_⟩
      rw [DimVal.none_vec, zipWith_zero_left (by rw [DimVal.vec_length, wr.1])]
    · simp [hname] at hn
  · simp [hname] at hn

/-- Division type-checks only between quantities and numbers and gives a quantity whose exponents are the differences of the
operands' exponents. -/
theorem C20_div {ss : List Storage} {n : Nat} {l r : OpTy E} {out : OpOut E} (h : OpTyped ss n .div l r out)
    (hl : l.ty.WF n) (hr : r.ty.WF n) :
    ∃ dl dr d s, l.ty.dim n = some dl ∧ r.ty.dim n = some dr ∧ out = .value (.quantity s d) ∧
      d.Canonical ∧ d.vec = List.zipWith (· - ·) dl.vec dr.vec := by
  obtain ⟨o, ho, hname, i, rfl, hty⟩ := h
  obtain ⟨sl, sr, s, -, -, -, hcase⟩ := typed_inv ho hty
  rcases hcase with ⟨dl, dr, d, -, -, el, er, hn, rfl⟩ | ⟨d, -, -, el, er, hn⟩ | ⟨d, -, -, el, er, hn, rfl⟩ | ⟨d, -, -, el, er, hn, rfl⟩ |
    ⟨d, d', -, -, el, er, hn, rfl⟩ | ⟨hk, hn⟩
  · have wl := hl dl (by simp [el, Ty.dim])
    have wr := hr dr (by simp [er, Ty.dim])
    rcases hn with ⟨hn, -⟩ | ⟨-, hn⟩
    · simp [hname] at hn
    · obtain ⟨c, v, -⟩ := DimVal.sub_spec wl.2 wr.2 hn
      exact ⟨dl, dr, d, s, by simp [el, Ty.dim], by simp [er, Ty.dim], rfl, c, v⟩
  · simp [hname] at hn
  · simp [hname] at hn
  · have wl := hl d (by simp [el, Ty.dim])
    refine ⟨d, DimVal.none i.n, d, s, by simp [el, Ty.dim], by simp [er, Ty.dim], rfl, wl.2, ?_⟩
    rw [DimVal.none_vec, zipWith_sub_zero (by rw [DimVal.vec_length, wl.1])]
  · have wr := hr d (by simp [er, Ty.dim])
    rcases hn with ⟨hn, -⟩ | ⟨-, hn⟩
    · simp [hname] at hn
    · obtain ⟨c, v⟩ := DimVal.neg_spec wr.2 hn
      refine ⟨DimVal.none i.n, d, d', s, by simp [el, Ty.dim], by simp [er, Ty.dim], rfl, c, ?_⟩
      rw [v, DimVal.none_vec, zipWith_zero_sub (by rw [DimVal.vec_length, wr.1])]
  · simp [hname] at hn

omit [Exponent E] [LawfulExponent E] [LawfulFieldOps E] in
/-- The checks do not go too far: quantities of equal dimension and storage type can be added, subtracted, compared for equality
(by value and by reference); floats can also be ordered; any two quantities whose product or quotient dimension is representable can
be multiplied or divided. -/
theorem C20_available (ss : List Storage) (n : Nat) (s : Storage) (d dl dr : DimVal E) :
    (∀ t ∈ [Trait.add, .sub], ∀ rl ∈ [RefKind.value, .ref], ∀ rr ∈ [RefKind.value, .ref],
      OpTyped ss n t ⟨rl, .quantity s d⟩ ⟨rr, .quantity s d⟩ (.value (.quantity s d))) ∧
    (∀ t ∈ [Trait.addAssign, .subAssign], ∀ rl ∈ [RefKind.value, .mutRef], ∀ rr ∈ [RefKind.value, .ref],
      OpTyped ss n t ⟨rl, .quantity s d⟩ ⟨rr, .quantity s d⟩ .updated) ∧
    OpTyped ss n .partialEq ⟨.value, .quantity s d⟩ ⟨.value, .quantity s d⟩ .bool ∧
    (s.isFloat → OpTyped ss n .partialOrd ⟨.value, .quantity s d⟩ ⟨.value, .quantity s d⟩ .ordering) ∧
    (∀ p, DimVal.add dl dr = some p → ∀ rl ∈ [RefKind.value, .ref], ∀ rr ∈ [RefKind.value, .ref],
      OpTyped ss n .mul ⟨rl, .quantity s dl⟩ ⟨rr, .quantity s dr⟩ (.value (.quantity s p))) ∧
    (∀ p, DimVal.sub dl dr = some p → ∀ rl ∈ [RefKind.value, .ref], ∀ rr ∈ [RefKind.value, .ref],
      OpTyped ss n .div ⟨rl, .quantity s dl⟩ ⟨rr, .quantity s dr⟩ (.value (.quantity s p))) := by
  have mem : ∀ o, o ∈ iterNumericTraits [] → o ∈ iterNumericTraits ss := by
    intro o ho
    unfold iterNumericTraits at ho ⊢
    rw [List.mem_append] at ho
    rcases ho with ho | ho
    · exact List.mem_append_left _ ho
    · simp at ho
  refine ⟨?_, ?_, ?_, ?_, ?_, ?_⟩
  · intro t ht rl hrl rr hrr
    refine ⟨⟨t, qG rl, qG rr⟩, mem _ ?_, rfl, ⟨n, d, d, d, s, s, s⟩, rfl, rfl, rfl, ?_, ?_, s, ?_, ?_⟩
    · revert t rl rr; decide
    all_goals fin_cases ht <;> simp [OperatorTrait.lhsType, OperatorTrait.rhsType, typeForOperand, qG, OperatorTrait.dimensionTypes,
      OperatorTrait.differentDimensionsAllowed, OperatorTrait.storageTypes, OperatorTrait.differentStorageTypesAllowed, Inst.st,
      Inst.dim, storageOut, OperatorTrait.outputDimension, Inst.evalDim]
  · intro t ht rl hrl rr hrr
    refine ⟨⟨t, qG rl, qG rr⟩, mem _ ?_, rfl, ⟨n, d, d, d, s, s, s⟩, rfl, rfl, rfl, ?_, ?_, s, ?_, ?_⟩
    · revert t rl rr; decide
    all_goals fin_cases ht <;> simp [OperatorTrait.lhsType, OperatorTrait.rhsType, typeForOperand, qG, OperatorTrait.dimensionTypes,
      OperatorTrait.differentDimensionsAllowed, OperatorTrait.storageTypes, OperatorTrait.differentStorageTypesAllowed, Inst.st,
      Inst.dim, storageOut, OperatorTrait.outputDimension, Inst.evalDim]
  · refine ⟨⟨.partialEq, qG, qG⟩, mem _ (by decide), rfl, ⟨n, d, d, d, s, s, s⟩, rfl, rfl, rfl, ?_, ?_, s, ?_, ?_⟩
    all_goals simp [OperatorTrait.lhsType, OperatorTrait.rhsType, typeForOperand, qG, OperatorTrait.dimensionTypes,
      OperatorTrait.differentDimensionsAllowed, OperatorTrait.storageTypes, OperatorTrait.differentStorageTypesAllowed, Inst.st,
      Inst.dim, storageOut, OperatorTrait.outputDimension, Inst.evalDim]
  · intro hf
    refine ⟨⟨.partialOrd, qG, qG⟩, mem _ (by decide), rfl, ⟨n, d, d, d, s, s, s⟩, rfl, rfl, rfl, ?_, ?_, s, ?_, ?_⟩
    all_goals simp [OperatorTrait.lhsType, OperatorTrait.rhsType, typeForOperand, qG, OperatorTrait.dimensionTypes,
      OperatorTrait.differentDimensionsAllowed, OperatorTrait.storageTypes, OperatorTrait.differentStorageTypesAllowed, Inst.st,
      Inst.dim, storageOut, OperatorTrait.outputDimension, Inst.evalDim, hf]
  · intro p hp rl hrl rr hrr
    refine ⟨⟨.mul, qG rl, qG rr⟩, mem _ ?_, rfl, ⟨n, d, dl, dr, s, s, s⟩, rfl, rfl, rfl, ?_, ?_, s, ?_, ?_⟩
    · revert rl rr; decide
    all_goals simp [OperatorTrait.lhsType, OperatorTrait.rhsType, typeForOperand, qG, OperatorTrait.dimensionTypes,
      OperatorTrait.differentDimensionsAllowed, OperatorTrait.storageTypes, OperatorTrait.differentStorageTypesAllowed, Inst.st,
      Inst.dim, storageOut, OperatorTrait.outputDimension, Inst.evalDim, hp]
  · intro p hp rl hrl rr hrr
    refine ⟨⟨.div, qG rl, qG rr⟩, mem _ ?_, rfl, ⟨n, d, dl, dr, s, s, s⟩, rfl, rfl, rfl, ?_, ?_, s, ?_, ?_⟩
    · revert rl rr; decide
    all_goals simp [OperatorTrait.lhsType, OperatorTrait.rhsType, typeForOperand, qG, OperatorTrait.dimensionTypes,
      OperatorTrait.differentDimensionsAllowed, OperatorTrait.storageTypes, OperatorTrait.differentStorageTypesAllowed, Inst.st,
      Inst.dim, storageOut, OperatorTrait.outputDimension, Inst.evalDim, hp]

/-- Generating the operators never hits an `unreachable!()` or a failing assertion in the macro: every implementation with an output
type has an output dimension, and two concrete storage types are the same. -/
theorem C20_no_unreachable {ss : List Storage} {o : OperatorTrait} (ho : o ∈ iterNumericTraits ss) :
    (o.name.hasOutput = true → o.outputDimension.isSome) ∧
    ∀ a b, o.lhs.storage = .concrete a → o.rhs.storage = .concrete b → a = b := by
  refine ⟨?_, ?_⟩
  · exact iterNumericTraits_forall (p := fun o => o.name.hasOutput = true → o.outputDimension.isSome)
      (by intro ty; cases ty <;> decide) ho
  · intro a b ha hb
    have := table_shapeOk ho
    obtain ⟨t, ⟨lk, ls, lref⟩, ⟨rk, rs, rref⟩⟩ := o
    simp only at ha hb; subst ha hb
    cases lk <;> cases rk <;> simp [OperatorTrait.shapeOk] at this
    · exact this.1
    · exact this.1.1.1.1


/-! ### The whole table -/

section
omit [Exponent E] [LawfulExponent E] [LawfulFieldOps E]

theorem mem_generic {ss : List Storage} {o : OperatorTrait} (h : o ∈ iterNumericTraits []) : o ∈ iterNumericTraits ss := by
  unfold iterNumericTraits at h ⊢
  rw [List.mem_append] at h
  rcases h with h | h
  · exact List.mem_append_left _ h
  · simp at h

theorem mem_concrete {ss : List Storage} {ty : Storage} (hty : ty ∈ ss) {o : OperatorTrait} (h : o ∈ iterNumericTraits [ty]) :
    o ∈ iterNumericTraits ss := by
  unfold iterNumericTraits at h ⊢
  rw [List.mem_append] at h
  rcases h with h | h
  · exact List.mem_append_left _ h
  · refine List.mem_append_right _ ?_
    rw [List.mem_flatMap] at h ⊢
    obtain ⟨ty', h1, h2⟩ := h
    simp at h1; subst h1
    exact ⟨ty', hty, h2⟩

theorem table_cases {ss : List Storage} {o : OperatorTrait} (h : o ∈ iterNumericTraits ss) :
    o ∈ iterNumericTraits [] ∨ ∃ ty ∈ ss, o ∈ iterNumericTraits [ty] := by
  unfold iterNumericTraits at h ⊢
  rw [List.mem_append] at h
  rcases h with h | h
  · exact .inl (List.mem_append_left _ h)
  · rw [List.mem_flatMap] at h
    obtain ⟨ty, h1, h2⟩ := h
    refine .inr ⟨ty, h1, List.mem_append_right _ ?_⟩
    rw [List.mem_flatMap]
    exact ⟨ty, by simp, h2⟩

theorem typed_exists {ss : List Storage} {n : Nat} {o : OperatorTrait} {i : Inst E} (hn : i.n = n) {l r : OpTy E} {out : OpOut E}
    (ho : o ∈ iterNumericTraits ss) (h : o.Typed i l r out) : OperatorExists ss n o.name l r out := by
  obtain ⟨lr, lt⟩ := l
  obtain ⟨rr, rt⟩ := r
  obtain ⟨h1, h2, h3, h4, s, h5, h6⟩ := h
  simp only at h1 h2 h3 h4
  subst hn
  subst h1 h2
  have hc := table_cases ho
  clear ho
  rcases hc with ho | ⟨ty, hty, ho⟩
  · fin_cases ho <;>
      simp [OperatorTrait.lhsType, OperatorTrait.rhsType, typeForOperand, OperatorTrait.dimensionTypes, qG, dG, sG,
        OperatorTrait.differentDimensionsAllowed, OperatorTrait.storageTypes, OperatorTrait.differentStorageTypesAllowed, Inst.st,
        Inst.dim, OperatorTrait.outputDimension, Inst.evalDim] at h3 h4 h5 h6 <;>
      subst h3 h4 <;>
      simp [OperatorExists, ByValueOrRef, Assigns, Compares, qG, dG, sG, h5, h6]
  · fin_cases ho <;>
      simp [OperatorTrait.lhsType, OperatorTrait.rhsType, typeForOperand, OperatorTrait.dimensionTypes, qG, dG, sG, qC, dC, sC,
        OperatorTrait.differentDimensionsAllowed, OperatorTrait.storageTypes, OperatorTrait.differentStorageTypesAllowed, Inst.st,
        Inst.dim, OperatorTrait.outputDimension, Inst.evalDim] at h3 h4 h5 h6 <;>
      subst h3 h4 <;>
      simp [OperatorExists, ByValueOrRef, Assigns, AssignsOwned, ComparesValues, Compares, qG, dG, sG, qC, dC, sC, h5, h6, hty]

/-- **C20.** The operators of the generated code are exactly the ones of `OperatorExists`: nothing is missing, nothing more
type-checks, and the outcome has the stated type. -/
theorem C20_exactly (ss : List Storage) (n : Nat) (t : Trait) (l r : OpTy E) (out : OpOut E) :
    OpTyped ss n t l r out ↔ OperatorExists ss n t l r out := by
  constructor
  · rintro ⟨o, ho, rfl, i, hn, h⟩
    exact typed_exists hn ho h
  · intro h
    obtain ⟨lr, lt⟩ := l
    obtain ⟨rr, rt⟩ := r
    cases lt <;> cases rt <;> try exact absurd h id
    · rename_i sl dl sr dr
      obtain ⟨s, hs, h⟩ := h
      cases t
      case mulAssign | divAssign =>
        refine ⟨⟨_, qG lr, dG rr⟩, mem_generic ?_, rfl, ⟨n, dl, dl, dr, sl, sr, sl⟩, rfl, ?_⟩
        · cases lr <;> cases rr <;> simp [Assigns] at h <;> decide
        · simp_all [OperatorTrait.Typed, OperatorTrait.lhsType, OperatorTrait.rhsType, typeForOperand, OperatorTrait.dimensionTypes, qG, dG,
        sG, qC, dC, sC, OperatorTrait.differentDimensionsAllowed, OperatorTrait.storageTypes,
        OperatorTrait.differentStorageTypesAllowed, Inst.st, Inst.dim, OperatorTrait.outputDimension, Inst.evalDim]
      all_goals
        refine ⟨⟨_, qG lr, qG rr⟩, mem_generic ?_, rfl, ⟨n, dl, dl, dr, sl, sr, sl⟩, rfl, ?_⟩
        · cases lr <;> cases rr <;> simp [Assigns, ByValueOrRef, Compares] at h <;> decide
        · simp_all [OperatorTrait.Typed, OperatorTrait.lhsType, OperatorTrait.rhsType, typeForOperand, OperatorTrait.dimensionTypes, qG, dG,
        sG, qC, dC, sC, OperatorTrait.differentDimensionsAllowed, OperatorTrait.storageTypes,
        OperatorTrait.differentStorageTypesAllowed, Inst.st, Inst.dim, OperatorTrait.outputDimension, Inst.evalDim]
    · rename_i sl dl sr
      obtain ⟨s, hs, h⟩ := h
      cases t
      case add | sub | addAssign | subAssign =>
        refine ⟨⟨_, dG lr, sG rr⟩, mem_generic ?_, rfl, ⟨n, dl, dl, dl, sl, sr, sl⟩, rfl, ?_⟩
        · cases lr <;> cases rr <;> simp [Assigns, ByValueOrRef] at h <;> decide
        · simp_all [OperatorTrait.Typed, OperatorTrait.lhsType, OperatorTrait.rhsType, typeForOperand, OperatorTrait.dimensionTypes, qG, dG,
        sG, qC, dC, sC, OperatorTrait.differentDimensionsAllowed, OperatorTrait.storageTypes,
        OperatorTrait.differentStorageTypesAllowed, Inst.st, Inst.dim, OperatorTrait.outputDimension, Inst.evalDim]
      case mul | div =>
        refine ⟨⟨_, qG lr, sC sr rr⟩, mem_concrete h.2.1 ?_, rfl, ⟨n, dl, dl, dl, sl, sr, sl⟩, rfl, ?_⟩
        · cases lr <;> cases rr <;> simp [Assigns, ByValueOrRef] at h <;> simp [iterNumericTraits]
        · simp_all [OperatorTrait.Typed, OperatorTrait.lhsType, OperatorTrait.rhsType, typeForOperand, OperatorTrait.dimensionTypes, qG, dG,
        sG, qC, dC, sC, OperatorTrait.differentDimensionsAllowed, OperatorTrait.storageTypes,
        OperatorTrait.differentStorageTypesAllowed, Inst.st, Inst.dim, OperatorTrait.outputDimension, Inst.evalDim]
      case mulAssign | divAssign =>
        refine ⟨⟨_, qC sr lr, sC sr rr⟩, mem_concrete h.2.2.1 ?_, rfl, ⟨n, dl, dl, dl, sl, sr, sl⟩, rfl, ?_⟩
        · cases lr <;> cases rr <;> simp [AssignsOwned] at h <;> simp [iterNumericTraits]
        · simp_all [OperatorTrait.Typed, OperatorTrait.lhsType, OperatorTrait.rhsType, typeForOperand, OperatorTrait.dimensionTypes, qG, dG,
        sG, qC, dC, sC, OperatorTrait.differentDimensionsAllowed, OperatorTrait.storageTypes,
        OperatorTrait.differentStorageTypesAllowed, Inst.st, Inst.dim, OperatorTrait.outputDimension, Inst.evalDim]
      all_goals
        refine ⟨⟨_, dG lr, sC sr rr⟩, mem_concrete h.2.1 ?_, rfl, ⟨n, dl, dl, dl, sl, sr, sl⟩, rfl, ?_⟩
        · cases lr <;> cases rr <;> simp [ComparesValues] at h <;> simp [iterNumericTraits]
        · simp_all [OperatorTrait.Typed, OperatorTrait.lhsType, OperatorTrait.rhsType, typeForOperand, OperatorTrait.dimensionTypes, qG, dG,
        sG, qC, dC, sC, OperatorTrait.differentDimensionsAllowed, OperatorTrait.storageTypes,
        OperatorTrait.differentStorageTypesAllowed, Inst.st, Inst.dim, OperatorTrait.outputDimension, Inst.evalDim]
    · rename_i sl sr dr
      obtain ⟨s, hs, hss, h⟩ := h
      cases t
      case mul | div =>
        refine ⟨⟨_, sC sl lr, qG rr⟩, mem_concrete hss ?_, rfl, ⟨n, dr, dr, dr, sl, sr, sr⟩, rfl, ?_⟩
        · cases lr <;> cases rr <;> simp [ByValueOrRef] at h <;> simp [iterNumericTraits]
        · simp_all [OperatorTrait.Typed, OperatorTrait.lhsType, OperatorTrait.rhsType, typeForOperand, OperatorTrait.dimensionTypes, qG, dG,
        sG, qC, dC, sC, OperatorTrait.differentDimensionsAllowed, OperatorTrait.storageTypes,
        OperatorTrait.differentStorageTypesAllowed, Inst.st, Inst.dim, OperatorTrait.outputDimension, Inst.evalDim]
      case partialEq | partialOrd =>
        refine ⟨⟨_, sC sl lr, dG rr⟩, mem_concrete hss ?_, rfl, ⟨n, dr, dr, dr, sl, sr, sr⟩, rfl, ?_⟩
        · cases lr <;> cases rr <;> simp [ComparesValues] at h <;> simp [iterNumericTraits]
        · simp_all [OperatorTrait.Typed, OperatorTrait.lhsType, OperatorTrait.rhsType, typeForOperand, OperatorTrait.dimensionTypes, qG, dG,
        sG, qC, dC, sC, OperatorTrait.differentDimensionsAllowed, OperatorTrait.storageTypes,
        OperatorTrait.differentStorageTypesAllowed, Inst.st, Inst.dim, OperatorTrait.outputDimension, Inst.evalDim]
      all_goals
        refine ⟨⟨_, sC sl lr, dC sl rr⟩, mem_concrete hss ?_, rfl, ⟨n, dr, dr, dr, sl, sr, sr⟩, rfl, ?_⟩
        · cases lr <;> cases rr <;> simp [AssignsOwned, ByValueOrRef] at h <;> simp [iterNumericTraits]
        · simp_all [OperatorTrait.Typed, OperatorTrait.lhsType, OperatorTrait.rhsType, typeForOperand, OperatorTrait.dimensionTypes, qG, dG,
        sG, qC, dC, sC, OperatorTrait.differentDimensionsAllowed, OperatorTrait.storageTypes,
        OperatorTrait.differentStorageTypesAllowed, Inst.st, Inst.dim, OperatorTrait.outputDimension, Inst.evalDim]

/-- The implementation an expression with these operands can only come from. -/
def pickImpl (t : Trait) (l r : OpTy E) : OperatorTrait :=
  match l.ty, r.ty with
  | .quantity _ _, .quantity _ _ =>
    if t = .mulAssign ∨ t = .divAssign then ⟨t, qG l.ref, dG r.ref⟩ else ⟨t, qG l.ref, qG r.ref⟩
  | .quantity _ _, .bare sr =>
    if t = .mul ∨ t = .div then ⟨t, qG l.ref, sC sr r.ref⟩
    else if t = .mulAssign ∨ t = .divAssign then ⟨t, qC sr l.ref, sC sr r.ref⟩
    else if t = .partialEq ∨ t = .partialOrd then ⟨t, dG l.ref, sC sr r.ref⟩
    else ⟨t, dG l.ref, sG r.ref⟩
  | .bare sl, _ =>
    if t = .mul ∨ t = .div then ⟨t, sC sl l.ref, qG r.ref⟩
    else if t = .partialEq ∨ t = .partialOrd then ⟨t, sC sl l.ref, dG r.ref⟩
    else ⟨t, sC sl l.ref, dC sl r.ref⟩
  | _, _ => ⟨t, qG, qG⟩

theorem header_pick {ss : List Storage} {o : OperatorTrait} {i : Inst E} {l r : OpTy E} (ho : o ∈ iterNumericTraits ss)
    (h1 : l.ref = o.lhs.ref) (h2 : r.ref = o.rhs.ref) (h3 : o.lhsType i = some l.ty) (h4 : o.rhsType i = some r.ty) :
    o = pickImpl o.name l r := by
  obtain ⟨lr, lt⟩ := l
  obtain ⟨rr, rt⟩ := r
  simp only at h1 h2 h3 h4
  subst h1 h2
  have hc := table_cases ho
  clear ho
  rcases hc with ho | ⟨ty, hty, ho⟩
  · fin_cases ho <;>
      simp [OperatorTrait.lhsType, OperatorTrait.rhsType, typeForOperand, OperatorTrait.dimensionTypes, qG, dG, sG,
        OperatorTrait.differentDimensionsAllowed, OperatorTrait.storageTypes, OperatorTrait.differentStorageTypesAllowed, Inst.st,
        Inst.dim] at h3 h4 <;>
      subst h3 h4 <;> rfl
  · fin_cases ho <;>
      simp [OperatorTrait.lhsType, OperatorTrait.rhsType, typeForOperand, OperatorTrait.dimensionTypes, qG, dG, sG, qC, dC, sC,
        OperatorTrait.differentDimensionsAllowed, OperatorTrait.storageTypes, OperatorTrait.differentStorageTypesAllowed, Inst.st,
        Inst.dim] at h3 h4 <;>
      subst h3 h4 <;> rfl

/-- **C20.** Operator expressions are unambiguous: two generated implementations of the same operator never apply to the same operand
types (their storage types being numbers or vectors), even disregarding the trait bounds. -/
theorem C20_unambiguous (ss : List Storage) (o o' : OperatorTrait) (ho : o ∈ iterNumericTraits ss) (ho' : o' ∈ iterNumericTraits ss)
    (same : o.name = o'.name) (i i' : Inst E) (l r : OpTy E)
    (h : l.ref = o.lhs.ref ∧ r.ref = o.rhs.ref ∧ o.lhsType i = some l.ty ∧ o.rhsType i = some r.ty)
    (h' : l.ref = o'.lhs.ref ∧ r.ref = o'.rhs.ref ∧ o'.lhsType i' = some l.ty ∧ o'.rhsType i' = some r.ty) : o = o' := by
  rw [header_pick ho h.1 h.2.1 h.2.2.1 h.2.2.2, header_pick ho' h'.1 h'.2.1 h'.2.2.1 h'.2.2.2, same]

/-- **C20.** The type of an operator expression is determined by its operands. -/
theorem C20_outcome_unique (ss : List Storage) (n : Nat) (t : Trait) (l r : OpTy E) (out out' : OpOut E)
    (h : OpTyped ss n t l r out) (h' : OpTyped ss n t l r out') : out = out' := by
  rw [C20_exactly] at h h'
  obtain ⟨lr, lt⟩ := l
  obtain ⟨rr, rt⟩ := r
  cases lt <;> cases rt <;> (try exact absurd h id) <;> obtain ⟨s, hs, h⟩ := h <;> obtain ⟨s', hs', h'⟩ := h' <;>
    obtain rfl := Option.some.inj (hs.symm.trans hs') <;> cases t <;> simp only at h h' <;> aesop

/-- No implementation is generated twice. -/
theorem C20_no_duplicates {ss : List Storage} (hss : ss.Nodup) : (iterNumericTraits ss).Nodup := by
  unfold iterNumericTraits
  rw [List.nodup_append]
  refine ⟨by decide, ?_, ?_⟩
  · rw [List.nodup_flatMap]
    refine ⟨fun ty _ => by cases ty <;> decide, ?_⟩
    refine hss.imp ?_
    intro a b hab
    revert hab
    cases a <;> cases b <;> intro hab <;> first | (exact absurd rfl hab) | (clear hab; unfold Function.onFun List.Disjoint; decide)
  · intro a ha b hb hab
    subst hab
    rw [List.mem_flatMap] at hb
    obtain ⟨ty, _, hb⟩ := hb
    revert a
    cases ty <;> decide

end

/-- Non-vacuity: a length plus a length type-checks, a length plus a time does not; length times time has exponents (1, 1). -/
example : OpTyped [.f64] 2 .add ⟨.value, .quantity .f64 [(1 : Int), 0]⟩ ⟨.ref, .quantity .f64 [1, 0]⟩ (.value (.quantity .f64 [1, 0])) :=
  (C20_available [.f64] 2 .f64 [(1 : Int), 0] [] []).1 .add (by simp) .value (by simp) .ref (by simp)
example (out : OpOut Int) : ¬ OpTyped [.f64] 2 .add ⟨.value, .quantity .f64 [1, 0]⟩ ⟨.value, .quantity .f64 [0, 1]⟩ out := by
  intro h
  obtain ⟨d, h1, h2, -⟩ := C20_equal_dimensions h (by simp)
  simp [Ty.dim] at h1 h2
  rw [← h1] at h2; simp at h2
example : OpTyped [.f64] 2 .mul ⟨.value, .quantity .f64 [(1 : Int), 0]⟩ ⟨.value, .quantity .f64 [0, 1]⟩ (.value (.quantity .f64 [1, 1])) :=
  (C20_available [.f64] 2 .f64 [] [(1 : Int), 0] [0, 1]).2.2.2.2.1 [1, 1] (by decide) .value (by simp) .value (by simp)

/-- A number times a length, both by value; comparing two references does not exist. -/
example : OpTyped [.f64] 2 .mul ⟨.value, .bare .f64⟩ ⟨.value, .quantity .f64 [(1 : Int), 0]⟩ (.value (.quantity .f64 [1, 0])) :=
  (C20_exactly ..).2 (by simp [OperatorExists, ByValueOrRef, storageOut])
example (out : OpOut Int) : ¬ OpTyped [.f64] 2 .partialEq ⟨.ref, .quantity .f64 [1, 0]⟩ ⟨.ref, .quantity .f64 [1, 0]⟩ out := by
  intro h
  simpa [OperatorExists, Compares] using (C20_exactly ..).1 h

end Diman
