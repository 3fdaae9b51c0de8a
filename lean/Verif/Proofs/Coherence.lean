import Verif.Proofs.Unify
import Verif.Props.C65
/-!
# The generated `impl` blocks: no two may be in conflict (for C67)
-/
set_option linter.unusedSectionVars false
namespace Diman

/-! ### The list for the greatest set of features -/

/-- `allImpls`, in terms of what it depends on. -/
def blocks (sys : Nat) (math serde hdf5 mpi rand : Bool) (floats vectors : List Storage) : List ImplBlock :=
  dimensionImpls sys ++ quantityImpls sys ++ unitImpls sys ++ (floats ++ vectors).flatMap (unitStorageImpls sys) ++
  operatorImpls sys (floats ++ vectors) ++ sumNegFromImpls sys ++ [debugImpl sys] ++
  (if math then dimensionlessImpls sys floats else []) ++ floats.flatMap (floatImpls sys math) ++
  vectors.flatMap (vectorImpls sys) ++ (floats ++ vectors).flatMap (genericImpls sys) ++
  (if serde then visitorDefault sys :: (floats ++ vectors).flatMap (serdeImpls sys) else []) ++
  (if hdf5 then (floats ++ vectors).flatMap (hdf5Impls sys) else []) ++
  (if mpi then (floats ++ vectors).flatMap (mpiImpls sys) else []) ++
  (if rand then uniformDerives sys ++ floats.flatMap (randImpls sys) else [])

theorem allImpls_eq (sys : Nat) (on : Feature → Bool) :
    allImpls sys on = blocks sys (hasMath on) (on .serde) (on .hdf5) (on .mpi) (on .rand) (floatTypes on) (vectorTypes on) := rfl

/-- The blocks with everything switched on, with or without mathematical functions. -/
def maxImplsOf (sys : Nat) (math : Bool) : List ImplBlock := blocks sys math true true true true [.f32, .f64] [.vec2, .dvec2, .vec3, .dvec3]
def maxImpls (math : Bool) : List ImplBlock := maxImplsOf 0 math

theorem floatTypes_sublist (on : Feature → Bool) : (floatTypes on).Sublist [.f32, .f64] := by
  unfold floatTypes
  cases on .f32 <;> cases on .f64 <;> decide
theorem vectorTypes_sublist (on : Feature → Bool) : (vectorTypes on).Sublist [.vec2, .dvec2, .vec3, .dvec3] := by
  unfold vectorTypes
  cases on .glamVec2 <;> cases on .glamDvec2 <;> cases on .glamVec3 <;> cases on .glamDvec3 <;> decide

theorem flatMap_sublist {α β : Type} {l l' : List α} (h : l.Sublist l') (f : α → List β) : (l.flatMap f).Sublist (l'.flatMap f) := by
  induction h with
  | slnil => exact List.Sublist.refl _
  | cons a _ ih => rw [List.flatMap_cons]; exact ih.trans (List.sublist_append_right _ _)
  | cons_cons a _ ih => rw [List.flatMap_cons, List.flatMap_cons]; exact (List.Sublist.refl _).append ih
theorem flatMap_sublist_fun {α β : Type} (l : List α) {f g : α → List β} (h : ∀ a ∈ l, (f a).Sublist (g a)) : (l.flatMap f).Sublist (l.flatMap g) := by
  induction l with
  | nil => exact List.Sublist.refl _
  | cons a l ih =>
    rw [List.flatMap_cons, List.flatMap_cons]
    exact (h a List.mem_cons_self).append (ih fun b hb => h b (List.mem_cons_of_mem _ hb))

theorem if_sublist {α : Type} (b : Bool) {l l' : List α} (h : l.Sublist l') : (if b then l else []).Sublist l' := by
  cases b
  · exact List.nil_sublist _
  · exact h

theorem operatorImpls_sublist (sys : Nat) {l l' : List Storage} (h : l.Sublist l') : (operatorImpls sys l).Sublist (operatorImpls sys l') := by
  unfold operatorImpls
  refine List.Sublist.filterMap _ ?_
  unfold iterNumericTraits
  exact (List.Sublist.refl _).append (flatMap_sublist h _)

theorem allImpls_sublist_of (sys : Nat) (on : Feature → Bool) : (allImpls sys on).Sublist (maxImplsOf sys (hasMath on)) := by
  rw [allImpls_eq]
  unfold maxImplsOf blocks
  have hf := floatTypes_sublist on
  have hv := vectorTypes_sublist on
  have hs := hf.append hv
  refine List.Sublist.append (List.Sublist.append (List.Sublist.append (List.Sublist.append (List.Sublist.append (List.Sublist.append (List.Sublist.append
    (List.Sublist.append (List.Sublist.append (List.Sublist.append (List.Sublist.append (List.Sublist.append (List.Sublist.refl _) ?_) ?_)
    (List.Sublist.refl _)) (List.Sublist.refl _)) ?_) ?_) ?_) ?_) ?_) ?_) ?_) ?_
  · exact flatMap_sublist hs _
  · exact operatorImpls_sublist sys hs
  · cases hasMath on
    · exact List.Sublist.refl _
    · exact flatMap_sublist_fun _ fun f _ => hf.map _
  · exact flatMap_sublist hf _
  · exact flatMap_sublist hv _
  · exact flatMap_sublist hs _
  · exact if_sublist _ ((flatMap_sublist hs _).cons_cons _)
  · exact if_sublist _ (flatMap_sublist hs _)
  · exact if_sublist _ (flatMap_sublist hs _)
  · exact if_sublist _ ((List.Sublist.refl _).append (flatMap_sublist hf _))

theorem allImpls_sublist (on : Feature → Bool) : (allImpls 0 on).Sublist (maxImpls (hasMath on)) := allImpls_sublist_of 0 on

/-! ### The number of the unit system does not matter -/

def TyHead.forget : TyHead → TyHead
  | .loc _ t => .loc 0 t
  | h => h
def TyPat.forget {V : Type} : TyPat V → TyPat V
  | .var v => .var v
  | .head h => .head h.forget
  | .app f x => .app f.forget x.forget
  | .ref m t => .ref m t.forget
  | .none => .none
def ImplBlock.forget (i : ImplBlock) : ImplBlock :=
  ⟨i.generics, i.trait.map fun t => (t.1, t.2.map TyPat.forget), i.self.forget, i.items⟩

theorem StName.pat_forget (s : StName) : s.pat.forget = s.pat := by cases s <;> rfl
theorem RefKind.pat_forget (r : RefKind) (t : TyPat GVar) : (r.pat t).forget = r.pat t.forget := by cases r <;> rfl
theorem TypeSyn.pat_forget (sys : Nat) (t : TypeSyn) : (t.pat sys).forget = t.pat 0 := by
  cases t with
  | quantity r s d => cases d <;> simp [TypeSyn.pat, RefKind.pat_forget, quantityPat, TyPat.forget, StName.pat_forget, TyHead.forget]
  | bare r s => simp [TypeSyn.pat, RefKind.pat_forget, StName.pat_forget]

theorem operatorImpls_forget (sys : Nat) (l : List Storage) : (operatorImpls sys l).map ImplBlock.forget = operatorImpls 0 l := by
  unfold operatorImpls
  rw [List.map_filterMap]
  refine congrArg (List.filterMap · _) (funext fun o => ?_)
  rw [Option.map_map]
  refine congrArg (Option.map · _) (funext fun i => ?_)
  simp [ImplSyn.block, ImplBlock.forget, TypeSyn.pat_forget]

theorem map_if_nil {α β : Type} (b : Bool) (l : List α) (f : α → β) : (if b then l else []).map f = if b then l.map f else [] := by cases b <;> rfl

theorem allImpls_forget (sys : Nat) (on : Feature → Bool) : (allImpls sys on).map ImplBlock.forget = allImpls 0 on := by
  unfold allImpls
  simp only [List.map_append, map_if_nil, List.map_flatMap, List.map_cons, List.map_nil, operatorImpls_forget]
  have hd : ∀ l, (dimensionlessImpls sys l).map ImplBlock.forget = dimensionlessImpls 0 l := by
    intro l
    unfold dimensionlessImpls
    rw [List.map_flatMap]
    refine congrArg (List.flatMap · _) (funext fun f => ?_)
    rw [List.map_map]; rfl
  rw [hd]
  rfl

/-! ### Overlap -/

/-- `false` only if the two blocks cannot apply to the same type. -/
def mayOverlap (i j : ImplBlock) : Bool :=
  match i.trait, j.trait with
  | some (_, xs), some (_, ys) =>
    decide (xs.length = ys.length) && unify (Sum.elim GVar.isStorage GVar.isStorage) 40
      ((i.self.map Sum.inl, j.self.map Sum.inr) :: List.zip (xs.map (TyPat.map Sum.inl)) (ys.map (TyPat.map Sum.inr)))
  | _, _ => unify (Sum.elim GVar.isStorage GVar.isStorage) 40 [(i.self.map Sum.inl, j.self.map Sum.inr)]

/-- A number for every trait, for quick comparison. -/
def Trait.code : Trait → Nat
  | .add => 0 | .sub => 1 | .mul => 2 | .div => 3 | .addAssign => 4 | .subAssign => 5 | .mulAssign => 6 | .divAssign => 7 | .partialEq => 8
  | .partialOrd => 9
def TraitId.code : TraitId → Nat
  | .op t => t.code
  | .neg => 10 | .sum => 11 | .from => 12 | .deref => 13 | .debug => 14 | .clone => 15 | .copy => 16 | .eq => 17 | .default => 18
  | .constParamTy => 19 | .deserialize => 20 | .visitor => 21 | .serialize => 22 | .h5Type => 23 | .equivalence => 24 | .uniformSampler => 25
  | .sampleUniform => 26

/-- `false` only if the two blocks cannot be in conflict. -/
def mayConflict (i j : ImplBlock) : Bool :=
  match i.trait, j.trait with
  | some (t, _), some (t', _) => Nat.beq t.code t'.code && mayOverlap i j
  | none, none => i.items.any (fun x => decide (x ∈ j.items)) && mayOverlap i j
  | _, _ => false

section
variable {E : Type} [FieldOps E]

theorem TyPat.inst_map {V W : Type} (n : Nat) (f : V → W) (σ : W → RTy E) (t : TyPat V) : (t.map f).inst n σ = t.inst n (σ ∘ f) := by
  induction t with
  | var v => rfl
  | head _ => rfl
  | none => rfl
  | app f x hf hx => simp only [TyPat.map, TyPat.inst, hf, hx]
  | ref m t ht => simp only [TyPat.map, TyPat.inst, ht]

theorem zip_map_eq {n : Nat} {σ τ : GVar → RTy E} : ∀ {xs ys : List (TyPat GVar)}, xs.map (TyPat.inst n σ) = ys.map (TyPat.inst n τ) →
    ∀ e ∈ List.zip (xs.map (TyPat.map (Sum.inl (β := GVar)))) (ys.map (TyPat.map (Sum.inr (α := GVar)))),
      e.1.inst n (Sum.elim σ τ) = e.2.inst n (Sum.elim σ τ)
  | [], _, _ => by simp
  | _ :: _, [], h => by simp at h
  | x :: xs, y :: ys, h => by
    intro e he
    simp only [List.map_cons, List.cons.injEq] at h
    simp only [List.map_cons, List.zip_cons_cons, List.mem_cons] at he
    rcases he with rfl | he
    · simp only [TyPat.inst_map, Sum.elim_comp_inl, Sum.elim_comp_inr]; exact h.1
    · exact zip_map_eq h.2 e he

theorem mayOverlap_sound {n : Nat} {i j : ImplBlock} (h : Overlap E n n i j) : mayOverlap i j = true := by
  obtain ⟨σ, τ, hσ, hτ, hself, hargs⟩ := h
  have foreign : ∀ v : GVar ⊕ GVar, Sum.elim GVar.isStorage GVar.isStorage v = true → (Sum.elim σ τ v).Foreign := by
    intro v hv
    cases v with
    | inl v => exact hσ v hv
    | inr v => exact hτ v hv
  have he : (i.self.map (Sum.inl (β := GVar))).inst n (Sum.elim σ τ) = (j.self.map (Sum.inr (α := GVar))).inst n (Sum.elim σ τ) := by
    simp only [TyPat.inst_map, Sum.elim_comp_inl, Sum.elim_comp_inr]; exact hself
  unfold mayOverlap
  split
  · rename_i t xs t' ys hi hj
    rw [hi, hj] at hargs
    rw [Bool.and_eq_true, decide_eq_true_eq]
    refine ⟨by simpa using congrArg List.length hargs, unify_sound (n := n) (σ := Sum.elim σ τ) _ foreign _ _ ?_⟩
    intro e hmem
    rcases List.mem_cons.1 hmem with rfl | hmem
    · exact he
    · exact zip_map_eq hargs e hmem
  · refine unify_sound (n := n) (σ := Sum.elim σ τ) _ foreign _ _ ?_
    intro e hmem
    rw [List.mem_singleton.1 hmem]
    exact he

theorem mayConflict_sound {n : Nat} {i j : ImplBlock} (h : Conflict E n n i j) : mayConflict i j = true := by
  obtain ⟨ho, hc⟩ := h
  have := mayOverlap_sound ho
  unfold mayConflict
  rcases hc with ⟨t, xs, ys, hi, hj⟩ | ⟨hi, hj, x, hx, hy⟩
  · rw [hi, hj]; simp [this]
  · rw [hi, hj]
    simp only [this, Bool.and_true]
    rw [List.any_eq_true]
    exact ⟨x, hx, by simpa using hy⟩
end

/-- No block may be in conflict with a later one. -/
def noConflicts : List ImplBlock → Bool
  | [] => true
  | i :: l => l.all (fun j => !mayConflict i j) && noConflicts l
theorem noConflicts_sound : ∀ {l : List ImplBlock}, noConflicts l = true → l.Pairwise fun i j => mayConflict i j = false
  | [], _ => .nil
  | i :: l, h => by
    simp only [noConflicts, Bool.and_eq_true, List.all_eq_true, Bool.not_eq_true'] at h
    exact .cons h.1 (noConflicts_sound h.2)

theorem maxImpls_fine_true : noConflicts (maxImpls true) = true := by decide +kernel
theorem maxImpls_fine_false : noConflicts (maxImpls false) = true := by decide +kernel
theorem maxImpls_fine (math : Bool) : (maxImpls math).Pairwise fun i j => mayConflict i j = false := by
  cases math
  · exact noConflicts_sound maxImpls_fine_false
  · exact noConflicts_sound maxImpls_fine_true

section
variable {E : Type} [FieldOps E]

def RTy.forget : RTy E → RTy E
  | .head h => .head h.forget
  | .app f x => .app f.forget x.forget
  | .ref m t => .ref m t.forget
  | t => t

theorem TyPat.inst_forget {V : Type} (n : Nat) (σ : V → RTy E) (t : TyPat V) : (t.inst n σ).forget = t.forget.inst n fun v => (σ v).forget := by
  induction t with
  | var v => rfl
  | head _ => rfl
  | none => rfl
  | app f x hf hx => simp only [TyPat.forget, TyPat.inst, RTy.forget, hf, hx]
  | ref m t ht => simp only [TyPat.forget, TyPat.inst, RTy.forget, ht]

theorem RTy.forget_foreign {t : RTy E} (h : t.Foreign) : t.forget.Foreign := by
  induction t with
  | head hd => cases hd <;> simp_all [RTy.forget, RTy.Foreign, TyHead.forget]
  | app f x hf hx => exact ⟨hf h.1, hx h.2⟩
  | ref m t ht => exact ht h
  | other _ => trivial
  | dim _ => trivial
  | mag _ => trivial

theorem Overlap.forget {n m : Nat} {i j : ImplBlock} (h : Overlap E n m i j) : Overlap E n m i.forget j.forget := by
  obtain ⟨σ, τ, hσ, hτ, hself, hargs⟩ := h
  refine ⟨fun v => (σ v).forget, fun v => (τ v).forget, fun v hv => RTy.forget_foreign (hσ v hv), fun v hv => RTy.forget_foreign (hτ v hv), ?_, ?_⟩
  · simp only [ImplBlock.forget, ← TyPat.inst_forget, hself]
  · unfold ImplBlock.forget
    cases hi : i.trait with
    | none => trivial
    | some x =>
      cases hj : j.trait with
      | none => trivial
      | some y =>
        rw [hi, hj] at hargs
        have := congrArg (List.map RTy.forget) hargs
        simp only [List.map_map] at this
        simp only [Option.map_some, List.map_map]
        refine Eq.trans (List.map_congr_left fun t _ => ?_) (this.trans (List.map_congr_left fun t _ => ?_))
        · exact (TyPat.inst_forget n σ t).symm
        · exact TyPat.inst_forget m τ t

theorem Conflict.forget {n m : Nat} {i j : ImplBlock} (h : Conflict E n m i j) : Conflict E n m i.forget j.forget := by
  refine ⟨h.1.forget, ?_⟩
  rcases h.2 with ⟨t, xs, ys, hi, hj⟩ | ⟨hi, hj, hx⟩
  · exact .inl ⟨t, xs.map TyPat.forget, ys.map TyPat.forget, by simp [ImplBlock.forget, hi], by simp [ImplBlock.forget, hj]⟩
  · exact .inr ⟨by simp [ImplBlock.forget, hi], by simp [ImplBlock.forget, hj], hx⟩

theorem Overlap.symm {n m : Nat} {i j : ImplBlock} (h : Overlap E n m i j) : Overlap E m n j i := by
  obtain ⟨σ, τ, hσ, hτ, hself, hargs⟩ := h
  refine ⟨τ, σ, hτ, hσ, hself.symm, ?_⟩
  cases hi : i.trait <;> cases hj : j.trait <;> simp_all

theorem Conflict.symm {n m : Nat} {i j : ImplBlock} (h : Conflict E n m i j) : Conflict E m n j i := by
  refine ⟨h.1.symm, ?_⟩
  rcases h.2 with ⟨t, xs, ys, hi, hj⟩ | ⟨hi, hj, x, hx, hy⟩
  · exact .inl ⟨t, ys, xs, hj, hi⟩
  · exact .inr ⟨hj, hi, x, hy, hx⟩
end
end Diman
