import Verif.Spec.ImplLegal
/-!
# C65 — The generated operator implementations are legal, and mean what they are for
-/
set_option linter.unusedSectionVars false
namespace Diman

instance (i : ImplSyn) : Decidable i.GenericsLegal := by unfold ImplSyn.GenericsLegal; infer_instance
instance (i : ImplSyn) : Decidable i.OrphanLegal := by unfold ImplSyn.OrphanLegal; infer_instance
instance (i : ImplSyn) (t : CoreTrait) : Decidable (i.Implements t) := by unfold ImplSyn.Implements; infer_instance
instance (i : ImplSyn) (t : Trait) : Decidable (i.CallLegal t) := by unfold ImplSyn.CallLegal; infer_instance
instance (i : ImplSyn) (s : StName) : Decidable (i.CanCopy s) := by unfold ImplSyn.CanCopy; infer_instance
instance (i : ImplSyn) (t : CoreTrait) : Decidable (i.MovesLegal t) := by unfold ImplSyn.MovesLegal; infer_instance
instance (i : ImplSyn) : Decidable i.OutputLegal := by
  unfold ImplSyn.OutputLegal
  split
  · infer_instance
  · refine @instDecidableAnd _ _ ?_ ?_
    · split <;> infer_instance
    · split <;> infer_instance
instance (i : ImplSyn) : Decidable i.Legal := by unfold ImplSyn.Legal; infer_instance

/-- Two concrete storage types are the same, and have the operator. -/
def OperatorTrait.SameConcrete (o : OperatorTrait) : Prop :=
  match o.lhs.storage, o.rhs.storage with
  | .concrete a, .concrete b => a = b ∧ o.name ≠ .partialOrd
  | _, _ => True
instance (o : OperatorTrait) : Decidable o.SameConcrete := by unfold OperatorTrait.SameConcrete; split <;> infer_instance

/-- A property of all generated operators, checked without storage types and for one storage type at a time. -/
theorem forall_numeric {Q : OperatorTrait → Prop} (h : ∀ o ∈ iterNumericTraits [], Q o) (h' : ∀ ty, ∀ o ∈ iterNumericTraits [ty], Q o)
    (storages : List Storage) : ∀ o ∈ iterNumericTraits storages, Q o := by
  intro o ho
  unfold iterNumericTraits at ho
  rw [List.mem_append] at ho
  rcases ho with ho | ho
  · exact h o (by unfold iterNumericTraits; exact List.mem_append_left _ ho)
  · obtain ⟨ty, -, ho⟩ := List.mem_flatMap.1 ho
    exact h' ty o (by unfold iterNumericTraits; exact List.mem_append_right _ (List.mem_flatMap.2 ⟨ty, List.mem_singleton.2 rfl, ho⟩))

/-- **C65.** Whatever storage types are enabled, every operator implementation the macro writes is legal: its generic parameters are declared once, all
declared and all constrained; it respects the orphan rule; it has the method of its trait with the trait's signature, and the associated type exactly if
the trait has one; the storage types have the operator that the body calls, by a where clause or because they are the same concrete type; nothing is moved
out of a reference unless it may be copied; and the where clauses the output type needs are there. (That no two overlap is C20.) -/
theorem C65_legal (storages : List Storage) : ∀ o ∈ iterNumericTraits storages, ∃ impl, o.genImpl = some impl ∧ impl.Legal := by
  have key : ∀ o : OperatorTrait, o.genImpl.any (fun i => decide i.Legal) = true → ∃ impl, o.genImpl = some impl ∧ impl.Legal := by
    intro o ho
    cases hg : o.genImpl with
    | none => rw [hg] at ho; cases ho
    | some impl => rw [hg] at ho; exact ⟨impl, rfl, of_decide_eq_true ho⟩
  refine forall_numeric (fun o ho => key o ?_) (fun ty o ho => key o ?_) storages
  · revert o; decide +kernel
  · revert o; cases ty <;> decide +kernel

section
variable {E : Type} [FieldOps E]

theorem storageOut_same {t : Trait} {a : Storage} (h : t ≠ .partialOrd) : storageOut t a a = some a := by
  cases t <;> simp_all [storageOut]

theorem eval_eq {i : Inst E} {op : Operand} {st : StName} {dim : Option DimName} {s : TypeSyn} (h : OperatorTrait.typeSyn op st dim = some s) {l : OpTy E} :
    s.eval i = l ↔ l.ref = op.ref ∧ typeForOperand i op st dim = some l.ty := by
  obtain ⟨r, ty⟩ := l
  unfold OperatorTrait.typeSyn at h
  unfold typeForOperand
  cases hk : op.kind with
  | quantity =>
    rw [hk] at h
    obtain ⟨d, hd, rfl⟩ := Option.map_eq_some_iff.1 h
    subst hd
    simp [TypeSyn.eval, DimArg.eval, eq_comm]
  | dimensionless =>
    rw [hk] at h
    cases h
    simp [TypeSyn.eval, DimArg.eval, eq_comm]
  | storage =>
    rw [hk] at h
    cases h
    simp [TypeSyn.eval, eq_comm]

/-- **C65.** The header says what the operator is for: for given generic arguments, the written `impl` applies to operand types `l` and `r` with outcome `out`
exactly if the operator is typed so (the relation C20 is about). -/
theorem C65_meaning (storages : List Storage) (o : OperatorTrait) (ho : o ∈ iterNumericTraits storages) (impl : ImplSyn) (hi : o.genImpl = some impl)
    (i : Inst E) (l r : OpTy E) (out : OpOut E) : impl.Applies i l r out ↔ o.Typed i l r out := by
  have same : o.SameConcrete := by
    refine forall_numeric (Q := OperatorTrait.SameConcrete) ?_ ?_ storages o ho
    · decide +kernel
    · intro ty; cases ty <;> decide +kernel
  simp only [OperatorTrait.genImpl, Option.bind_eq_bind, Option.bind_eq_some_iff, pure, Option.some.injEq] at hi
  obtain ⟨rs, hrs, ss, hss, oo, hoo, rfl⟩ := hi
  unfold ImplSyn.Applies OperatorTrait.Typed
  simp only [eval_eq hss, eval_eq hrs]
  have main : ((∀ b ∈ o.bounds oo, b.Holds i) ∧ ImplSyn.Says ⟨o.generics, o.name.path, rs, ss, o.bounds oo, oo, o.name.fnName, o.name.lhsArg,
        o.name.rhsArgRef, o.name.fnReturnType, o.fnReturnExpr⟩ i out) ↔
      ∃ s, storageOut o.name (i.st o.storageTypes.1) (i.st o.storageTypes.2) = some s ∧
        match o.name with
        | .add | .sub | .mul | .div => ∃ e d, o.outputDimension = some e ∧ i.evalDim e = some d ∧ out = .value (.quantity s d)
        | .addAssign | .subAssign | .mulAssign | .divAssign => out = .updated
        | .partialEq => out = .bool
        | .partialOrd => out = .ordering := by
    have hsame : ∀ a b, o.lhs.storage = .concrete a → o.rhs.storage = .concrete b →
        storageOut o.name (i.st o.storageTypes.1) (i.st o.storageTypes.2) = some a ∧ a = b := by
      intro a b ha hb
      unfold OperatorTrait.SameConcrete at same
      rw [ha, hb] at same
      obtain ⟨rfl, hn⟩ := same
      unfold OperatorTrait.storageTypes
      rw [ha, hb]
      exact ⟨storageOut_same hn, rfl⟩
    have hb : (∀ b ∈ o.bounds oo, b.Holds i) ↔ (storageOut o.name (i.st o.storageTypes.1) (i.st o.storageTypes.2)).isSome = true ∧
        ∀ s d, oo = some (s, d) → d.isNew = true → (i.evalDim d).isSome = true := by
      unfold OperatorTrait.bounds
      rw [List.forall_mem_append]
      refine and_congr ?_ ?_
      · split
        · rename_i a b ha hb
          rw [(hsame a b ha hb).1]
          simp
        · rw [List.forall_mem_append, List.forall_mem_append]
          simp only [List.mem_singleton, forall_eq]
          constructor
          · exact fun h => h.1.1
          · refine fun h => ⟨⟨h, ?_⟩, ?_⟩
            · split
              · simp [WhereBound.Holds]
              · simp
            · split
              · simp [WhereBound.Holds]
              · simp
      · cases oo with
        | none => simp
        | some p =>
          obtain ⟨s, d⟩ := p
          cases hd : d.isNew
          · simp only [hd]
            simp only [Bool.false_eq_true, if_false, List.not_mem_nil, false_imp_iff, implies_true, true_iff]
            rintro s' d' h h'
            cases h
            rw [hd] at h'; cases h'
          · simp only [hd, if_true, List.mem_singleton, forall_eq, WhereBound.Holds]
            constructor
            · rintro h s' d' e -
              cases e; exact h
            · exact fun h => h s d rfl hd
    rw [hb]
    unfold OperatorTrait.outputType at hoo
    cases ho' : o.name.hasOutput with
    | false =>
      rw [ho'] at hoo
      cases hoo
      unfold ImplSyn.Says
      rw [Option.isSome_iff_exists]
      cases hn : o.name <;> rw [hn] at ho' <;> first | (cases ho'; done) | simp [Trait.fnReturnType]
    | true =>
      rw [ho', if_pos rfl] at hoo
      obtain ⟨s, hs, hoo⟩ := Option.bind_eq_some_iff.1 hoo
      obtain ⟨d, hd, rfl⟩ := Option.map_eq_some_iff.1 hoo
      have hse : s.eval i = storageOut o.name (i.st o.storageTypes.1) (i.st o.storageTypes.2) := by
        unfold OperatorTrait.outputStorage at hs
        split at hs
        · rename_i a b ha hb
          obtain ⟨h1, rfl⟩ := hsame a b ha hb
          rw [if_pos rfl] at hs
          cases hs
          exact h1.symm
        · cases hs; rfl
      have hmatch : ∀ s, (match o.name with
        | .add | .sub | .mul | .div => ∃ e d, o.outputDimension = some e ∧ i.evalDim e = some d ∧ out = .value (.quantity s d)
        | .addAssign | .subAssign | .mulAssign | .divAssign => out = .updated
        | .partialEq => out = .bool
        | .partialOrd => out = .ordering) ↔ ∃ e d, o.outputDimension = some e ∧ i.evalDim e = some d ∧ out = .value (.quantity s d) := by
        intro s
        cases hn : o.name <;> rw [hn] at ho' <;> first | (cases ho'; done) | exact Iff.rfl
      simp only [hmatch]
      unfold ImplSyn.Says
      simp only [hse, hd]
      constructor
      · rintro ⟨-, s', d', h1, h2, h3⟩
        exact ⟨s', h1, d, d', rfl, h2, h3⟩
      · rintro ⟨s', h1, e, d', he, h2, h3⟩
        cases he
        refine ⟨⟨by rw [h1]; rfl, ?_⟩, s', d', h1, h2, h3⟩
        rintro _ _ e' -
        cases e'
        rw [h2]; rfl
  constructor
  · rintro ⟨⟨a1, a2⟩, ⟨b1, b2⟩, c⟩
    exact ⟨a1, b1, a2, b2, main.1 c⟩
  · rintro ⟨a1, b1, a2, b2, c⟩
    exact ⟨⟨a1, a2⟩, ⟨b1, b2⟩, main.2 c⟩
end

/-! ### Concrete implementations -/

-- `impl<'a, const DL: Dimension, const DR: Dimension, LHS, RHS> core::ops::Mul::<&'a Quantity<RHS, DR>> for Quantity<LHS, DL>
--  where LHS: core::ops::Mul::<RHS,>, RHS: Copy, Quantity<(), { DL.add(DR) }>:
--  { type Output = Quantity<<LHS as core::ops::Mul<RHS>>::Output, { DL.add(DR) }>; fn mul(self, rhs: &'a Quantity<RHS, DR>) -> Self::Output { … } }`
example : (⟨.mul, qG, qG .ref⟩ : OperatorTrait) ∈ iterNumericTraits [.f32] ∧
    (⟨.mul, qG, qG .ref⟩ : OperatorTrait).genImpl = some
      { generics := [.lifetime, .dim .DL, .dim .DR, .storage .LHS, .storage .RHS]
        traitPath := str!"core::ops::Mul"
        rhs := .quantity .ref .RHS (.name .DR)
        self := .quantity .value .LHS (.name .DL)
        bounds := [.implements .LHS .mul .RHS, .copy .RHS, .evaluates (.add .DL .DR)]
        output := some (.output .LHS .mul .RHS, .add .DL .DR)
        fnName := str!"mul", selfArg := .byValue, rhsArgRef := false, ret := .selfOutput
        body := ⟨true, false, .nothing, true, true⟩ } := by decide +kernel

-- The rules exclude something: `impl<S> Add<Quantity<S, none>> for S`, which the code generator avoids by writing one `impl` per storage type,
-- violates the orphan rule.
example : ¬ ∃ impl, (⟨.add, sG, dG⟩ : OperatorTrait).genImpl = some impl ∧ impl.Legal := by
  rintro ⟨impl, h, h'⟩
  have : (⟨.add, sG, dG⟩ : OperatorTrait).genImpl.any (fun i => decide i.Legal) = false := by decide +kernel
  rw [h] at this
  simp only [Option.any_some, decide_eq_false_iff_not] at this
  exact this h'

-- Nor may a mutable reference be compared: no generated `impl` says so.
example : ∀ o ∈ iterNumericTraits [.f32, .f64, .vec2, .dvec2, .vec3, .dvec3], o.name = .partialEq → o.lhs.ref ≠ .mutRef := by decide +kernel

end Diman
