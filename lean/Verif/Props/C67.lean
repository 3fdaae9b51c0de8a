import Verif.Proofs.Coherence
/-!
# C67 — The generated implementations are legal together
-/
set_option linter.unusedSectionVars false
namespace Diman
section
variable {E : Type} [FieldOps E]

/-- **C67, one unit system.** Whatever features are on, no two of the generated `impl` blocks are in conflict: there is no type, and no parameters of a
trait, to which two implementations of the same trait apply, and no type for which two inherent blocks define an item of the same name; and none is in
conflict with an implementation that other crates have for all types or all references. The types range over all types, what is stored in a quantity over
all types that are not themselves made of quantities and units (see `C67_nested` for these). -/
theorem C67_no_conflict (sys n : Nat) (on : Feature → Bool) :
    (allImpls sys on).Pairwise (fun i j => ¬ Conflict E n n i j) ∧
    ∀ i ∈ allImpls sys on, ∀ b ∈ blanketImpls, ¬ Conflict E n n i b := by
  constructor
  · have h := (maxImpls_fine (hasMath on)).sublist (allImpls_sublist on)
    rw [← allImpls_forget sys on, List.pairwise_map] at h
    refine h.imp ?_
    intro i j hij hc
    rw [mayConflict_sound hc.forget] at hij
    cases hij
  · have key : ∀ math, ∀ i ∈ maxImpls math, ∀ b ∈ blanketImpls, mayConflict i b = false := by intro math; cases math <;> decide +kernel
    intro i hi b hb hc
    have hi' : i.forget ∈ allImpls 0 on := by rw [← allImpls_forget sys on]; exact List.mem_map_of_mem hi
    have hb' : b.forget = b := by
      have : ∀ b ∈ blanketImpls, b.forget = b := by decide +kernel
      exact this b hb
    have := key _ _ ((allImpls_sublist on).subset hi') b hb
    have hc' := hc.forget
    rw [hb'] at hc'
    rw [mayConflict_sound hc'] at this
    cases this

/-! ### Several unit systems -/

/-- Which unit system a type belongs to. -/
def TyPat.sys? {V : Type} : TyPat V → Option Nat
  | .head (.loc a _) => some a
  | .app f _ => f.sys?
  | .ref _ t => t.sys?
  | _ => Option.none
def RTy.sys? : RTy E → Option Nat
  | .head (.loc a _) => some a
  | .app f _ => f.sys?
  | .ref _ t => t.sys?
  | _ => Option.none
def TyPat.isForeign {V : Type} : TyPat V → Bool
  | .head (.storage _) | .head .magnitude => true
  | .ref _ t => t.isForeign
  | _ => false

theorem TyPat.sys?_inst {V : Type} {n a : Nat} {σ : V → RTy E} {t : TyPat V} (h : t.sys? = some a) : (t.inst n σ).sys? = some a := by
  induction t with
  | var _ => cases h
  | none => cases h
  | head hd => cases hd <;> exact h
  | app f x hf _ => exact hf h
  | ref m t ht => exact ht h
theorem TyPat.isForeign_inst {V : Type} {n : Nat} {σ : V → RTy E} {t : TyPat V} (h : t.isForeign = true) : (t.inst n σ).sys? = Option.none := by
  induction t with
  | var _ => cases h
  | none => cases h
  | head hd => cases hd <;> first | rfl | (cases h)
  | app f x _ _ => cases h
  | ref m t ht => exact ht h

/-- The block belongs to the unit system `a`: its type does, or its type is foreign and the parameter of the trait does. -/
def ImplBlock.owner (i : ImplBlock) : Option Nat :=
  match i.self.sys? with
  | some a => some a
  | none => if i.self.isForeign then match i.trait with | some (_, [x]) => x.sys? | _ => none else none

theorem owner_self {i : ImplBlock} {a : Nat} (h : i.self.sys? = some a) : i.owner = some a := by unfold ImplBlock.owner; rw [h]
theorem RefKind.pat_sys? (r : RefKind) (t : TyPat GVar) : (r.pat t).sys? = t.sys? := by cases r <;> rfl
theorem RefKind.pat_isForeign (r : RefKind) {t : TyPat GVar} (h : t.isForeign = true) : (r.pat t).isForeign = true := by cases r <;> exact h
theorem TypeSyn.pat_sys? (sys : Nat) {t : TypeSyn} (h : t.isQuantity = true) : (t.pat sys).sys? = some sys := by
  cases t with
  | quantity r s d => cases d <;> simp only [TypeSyn.pat, RefKind.pat_sys?] <;> rfl
  | bare _ _ => cases h

theorem operator_owner (sys : Nat) (storages : List Storage) : ∀ i ∈ operatorImpls sys storages, i.owner = some sys := by
  intro i hi
  obtain ⟨o, ho, hg⟩ := List.mem_filterMap.1 hi
  obtain ⟨impl, hi', legal⟩ := C65_legal storages o ho
  rw [hi'] at hg
  cases hg
  rcases legal.2.1 with h | ⟨h1, h2⟩
  · exact owner_self (TypeSyn.pat_sys? sys h)
  · unfold ImplBlock.owner
    simp only [ImplSyn.block, TypeSyn.pat_sys? sys h2]
    cases hs : impl.self with
    | quantity r s d => rw [show (TypeSyn.pat sys (.quantity r s d)).sys? = some sys from TypeSyn.pat_sys? sys rfl]
    | bare r s =>
      rw [hs] at h1
      cases s with
      | concrete ty =>
        have hn : (TypeSyn.pat sys (.bare r (.concrete ty))).sys? = Option.none := by simp only [TypeSyn.pat, RefKind.pat_sys?]; rfl
        have hf : (TypeSyn.pat sys (.bare r (.concrete ty))).isForeign = true := RefKind.pat_isForeign r rfl
        rw [hn, hf]; rfl
      | LHS => cases h1
      | RHS => cases h1
      | S => cases h1

theorem forall_mem_if {α : Type} (b : Bool) {l : List α} {P : α → Prop} (h : ∀ x ∈ l, P x) : ∀ x ∈ (if b then l else []), P x := by
  cases b
  · intro x hx; cases hx
  · exact h

theorem forall_mem_flat {α β : Type} {l : List α} {f : α → List β} {P : β → Prop} (h : ∀ a, ∀ x ∈ f a, P x) : ∀ x ∈ l.flatMap f, P x := by
  intro x hx
  obtain ⟨a, -, hx⟩ := List.mem_flatMap.1 hx
  exact h a x hx

theorem owner_eq (sys : Nat) (on : Feature → Bool) : ∀ i ∈ allImpls sys on, i.owner = some sys := by
  unfold allImpls
  simp only [List.forall_mem_append]
  refine ⟨⟨⟨⟨⟨⟨⟨⟨⟨⟨⟨⟨⟨⟨?_, ?_⟩, ?_⟩, ?_⟩, ?_⟩, ?_⟩, ?_⟩, ?_⟩, ?_⟩, ?_⟩, ?_⟩, ?_⟩, ?_⟩, ?_⟩, ?_⟩
  · simp only [dimensionImpls, List.forall_mem_cons, List.not_mem_nil, false_implies, implies_true, and_true]; repeat' constructor
  · simp only [quantityImpls, List.forall_mem_cons, List.not_mem_nil, false_implies, implies_true, and_true]; repeat' constructor
  · simp only [unitImpls, List.forall_mem_cons, List.not_mem_nil, false_implies, implies_true, and_true]; repeat' constructor
  · refine forall_mem_flat fun s => ?_
    simp only [unitStorageImpls, List.forall_mem_cons, List.not_mem_nil, false_implies, implies_true, and_true]; repeat' constructor
  · exact operator_owner sys _
  · simp only [sumNegFromImpls, List.forall_mem_cons, List.not_mem_nil, false_implies, implies_true, and_true]; repeat' constructor
  · simp only [debugImpl, List.forall_mem_cons, List.not_mem_nil, false_implies, implies_true, and_true]; rfl
  · refine forall_mem_if _ (forall_mem_flat fun f => ?_)
    intro x hx; obtain ⟨s, -, rfl⟩ := List.mem_map.1 hx; rfl
  · refine forall_mem_flat fun s => ?_
    intro x hx; rw [floatImpls, List.mem_singleton] at hx; subst hx; rfl
  · refine forall_mem_flat fun s => ?_
    intro x hx; simp only [vectorImpls, List.mem_singleton] at hx; subst hx; rfl
  · refine forall_mem_flat fun s => ?_
    intro x hx; rw [genericImpls, List.mem_singleton] at hx; subst hx; rfl
  · refine forall_mem_if _ ?_
    rw [List.forall_mem_cons]
    refine ⟨rfl, ?_⟩
    · refine forall_mem_flat fun s => ?_
      simp only [serdeImpls, List.forall_mem_cons, List.not_mem_nil, false_implies, implies_true, and_true]; repeat' constructor
  · refine forall_mem_if _ (forall_mem_flat fun s => ?_)
    intro x hx; rw [hdf5Impls, List.mem_singleton] at hx; subst hx; rfl
  · refine forall_mem_if _ (forall_mem_flat fun s => ?_)
    intro x hx; rw [mpiImpls, List.mem_singleton] at hx; subst hx; rfl
  · refine forall_mem_if _ ?_
    simp only [List.forall_mem_append]
    refine ⟨?_, forall_mem_flat fun s => ?_⟩
    · simp only [uniformDerives, List.forall_mem_cons, List.not_mem_nil, false_implies, implies_true, and_true]; repeat' constructor
    · simp only [randImpls, List.forall_mem_cons, List.not_mem_nil, false_implies, implies_true, and_true]; repeat' constructor
/-- **C67, several unit systems.** Blocks of different unit systems in one program (with any numbers of base dimensions) are never in conflict; only types of
the two systems' own could be met by both. -/
theorem C67_systems_coexist (a b n m : Nat) (hab : a ≠ b) (on : Feature → Bool) (i j : ImplBlock) (hi : i ∈ allImpls a on) (hj : j ∈ allImpls b on) :
    ¬ Conflict E n m i j := by
  rintro ⟨⟨σ, τ, -, -, hself, hargs⟩, hc⟩
  have oi := owner_eq a on i hi
  have oj := owner_eq b on j hj
  have hs := congrArg (RTy.sys? (E := E)) hself
  unfold ImplBlock.owner at oi oj
  cases h1 : i.self.sys? with
  | some a' =>
    rw [h1] at oi
    cases oi
    rw [TyPat.sys?_inst h1] at hs
    cases h2 : j.self.sys? with
    | some b' =>
      rw [h2] at oj
      cases oj
      rw [TyPat.sys?_inst h2] at hs
      exact hab (Option.some.inj hs)
    | none =>
      rw [h2] at oj
      simp only at oj
      split at oj
      · rw [TyPat.isForeign_inst ‹_›] at hs; cases hs
      · cases oj
  | none =>
    rw [h1] at oi
    simp only at oi
    split at oi
    swap
    · cases oi
    rw [TyPat.isForeign_inst ‹_›] at hs
    cases h2 : j.self.sys? with
    | some b' => rw [TyPat.sys?_inst h2] at hs; cases hs
    | none =>
      rw [h2] at oj
      simp only at oj
      split at oj
      swap
      · cases oj
      revert oi oj hargs
      cases hti : i.trait with
      | none => intro _ oi; cases oi
      | some p =>
      cases htj : j.trait with
      | none => intro _ _ oj; cases oj
      | some q =>
      obtain ⟨t, xs⟩ := p
      obtain ⟨t', ys⟩ := q
      intro hargs oi oj
      match xs, ys, hargs, oi, oj with
      | [], _, _, oi, _ => cases oi
      | _ :: _ :: _, _, _, oi, _ => cases oi
      | [_], [], _, _, oj => cases oj
      | [_], _ :: _ :: _, _, _, oj => cases oj
      | [x], [y], hargs, oi, oj =>
      simp only [List.map_cons, List.map_nil, List.cons.injEq, and_true] at hargs
      have := congrArg (RTy.sys? (E := E)) hargs
      rw [TyPat.sys?_inst oi, TyPat.sys?_inst oj] at this
      exact hab (Option.some.inj this)
end

/-! ### Each block by itself -/

instance (i : ImplBlock) : Decidable i.ItemsLegal := by
  unfold ImplBlock.ItemsLegal
  refine @instDecidableAnd _ _ inferInstance ?_
  cases h : i.trait with
  | none => exact isTrue (fun t xs h => by cases h)
  | some p =>
    refine decidable_of_iff ((∀ x ∈ p.1.itemTable.1, x ∈ i.items) ∧ ∀ x ∈ i.items, x ∈ p.1.itemTable.1 ∨ x ∈ p.1.itemTable.2) ?_
    constructor
    · rintro h t xs e; cases e; exact h
    · intro h; exact h p.1 p.2 rfl

/-- The generics, as a check. -/
def ImplBlock.genericsOk (i : ImplBlock) : Bool :=
  decide i.generics.Nodup && i.generics.all (fun v => i.types.any fun t => decide (v ∈ t.vars)) && i.types.all fun t => t.vars.all fun v => decide (v ∈ i.generics)

theorem genericsOk_sound {i : ImplBlock} (h : i.genericsOk = true) : i.GenericsLegal := by
  unfold ImplBlock.genericsOk at h
  simp only [Bool.and_eq_true, decide_eq_true_eq, List.all_eq_true, List.any_eq_true] at h
  exact ⟨h.1.1, fun v => ⟨fun hv => h.1.2 v hv, fun ⟨t, ht, hv⟩ => h.2 t ht v hv⟩⟩

/-- The orphan rule, as a check. -/
def orphanOk : List (TyPat GVar) → Bool
  | [] => false
  | t :: ts => t.isLocal || (decide (t.vars = []) && orphanOk ts)
theorem orphanOk_sound : ∀ {ts : List (TyPat GVar)}, orphanOk ts = true →
    ∃ pre t post, ts = pre ++ t :: post ∧ t.isLocal = true ∧ ∀ p ∈ pre, p.vars = []
  | [], h => by cases h
  | t :: ts, h => by
    simp only [orphanOk, Bool.or_eq_true, Bool.and_eq_true, decide_eq_true_eq] at h
    rcases h with h | ⟨h1, h2⟩
    · exact ⟨[], t, ts, rfl, h, by simp⟩
    · obtain ⟨pre, t', post, e, hl, hp⟩ := orphanOk_sound h2
      refine ⟨t :: pre, t', post, by rw [e]; rfl, hl, ?_⟩
      intro p hm
      rcases List.mem_cons.1 hm with rfl | hm
      · exact h1
      · exact hp p hm

def ImplBlock.orphanLegalOk (i : ImplBlock) : Bool := match i.trait with | none => i.self.isLocal | some _ => orphanOk i.types
theorem orphanLegalOk_sound {i : ImplBlock} (h : i.orphanLegalOk = true) : i.OrphanLegal := by
  unfold ImplBlock.orphanLegalOk at h
  unfold ImplBlock.OrphanLegal
  cases ht : i.trait with
  | none => rw [ht] at h; exact h
  | some _ => rw [ht] at h; exact orphanOk_sound h

theorem TyPat.vars_forget {V : Type} (t : TyPat V) : t.forget.vars = t.vars := by
  induction t with
  | var _ => rfl
  | head _ => rfl
  | none => rfl
  | app f x hf hx => simp only [TyPat.forget, TyPat.vars, hf, hx]
  | ref m t ht => simpa only [TyPat.forget, TyPat.vars] using ht
theorem TyPat.isLocal_forget {V : Type} (t : TyPat V) : t.forget.isLocal = t.isLocal := by
  induction t with
  | var _ => rfl
  | head h => cases h <;> rfl
  | none => rfl
  | app f x hf hx => simpa only [TyPat.forget, TyPat.isLocal] using hf
  | ref m t ht => simpa only [TyPat.forget, TyPat.isLocal] using ht
theorem types_forget (i : ImplBlock) : i.forget.types = i.types.map TyPat.forget := by
  unfold ImplBlock.types ImplBlock.forget
  cases i.trait <;> rfl
theorem orphanOk_forget (ts : List (TyPat GVar)) : orphanOk (ts.map TyPat.forget) = orphanOk ts := by
  induction ts with
  | nil => rfl
  | cons t ts ih => simp only [List.map_cons, orphanOk, TyPat.vars_forget, TyPat.isLocal_forget, ih]

theorem ok_forget (i : ImplBlock) : i.forget.genericsOk = i.genericsOk ∧ i.forget.orphanLegalOk = i.orphanLegalOk := by
  constructor
  · unfold ImplBlock.genericsOk
    rw [types_forget]
    simp only [List.any_map, List.all_map, Function.comp_def, TyPat.vars_forget]
    rfl
  · unfold ImplBlock.orphanLegalOk
    rw [types_forget, orphanOk_forget]
    unfold ImplBlock.forget
    cases i.trait
    · exact TyPat.isLocal_forget _
    · rfl
theorem ImplBlock.ItemsLegal.of_forget {i : ImplBlock} (h : i.forget.ItemsLegal) : i.ItemsLegal := by
  refine ⟨h.1, ?_⟩
  intro t xs e
  exact h.2 t (xs.map TyPat.forget) (by simp [ImplBlock.forget, e])

/-- **C67, each block.** Whatever features are on, every generated `impl` block obeys the rules for one block: its generic parameters are declared once, all
occur in the header, and all that occurs is declared; the orphan rule; no item twice; and an implementation of a trait has all the items the trait demands and
none it does not have. -/
theorem C67_legal (sys : Nat) (on : Feature → Bool) : ∀ i ∈ allImpls sys on, i.Legal := by
  have key : ∀ math, ∀ i ∈ maxImpls math, i.genericsOk = true ∧ i.orphanLegalOk = true ∧ i.ItemsLegal := by
    intro math; cases math <;> decide +kernel
  intro i hi
  have hi' : i.forget ∈ allImpls 0 on := by rw [← allImpls_forget sys on]; exact List.mem_map_of_mem hi
  obtain ⟨h1, h2, h3⟩ := key _ _ ((allImpls_sublist on).subset hi')
  rw [(ok_forget i).1] at h1
  rw [(ok_forget i).2] at h2
  exact ⟨genericsOk_sound h1, orphanLegalOk_sound h2, .of_forget h3⟩

/-! ### What the traits demand -/

section
variable {E : Type} [FieldOps E]

theorem TyPat.inst_rename (n : Nat) (ρ : GVar → GVar) (σ : GVar → RTy E) (t : TyPat GVar) : t.inst n (σ ∘ ρ) = (t.map ρ).inst n σ :=
  (TyPat.inst_map n ρ σ t).symm

/-- A block supports another if it has the header demanded after renaming of its parameters. -/
theorem supported_of {impls : List ImplBlock} {i : ImplBlock} {n : Nat}
    (h : ∀ d, i.demands = some d → ∃ j ∈ impls, ∃ ys, j.trait = some (d.1, ys) ∧ ∃ ρ : GVar → GVar, j.self.map ρ = i.self ∧ ys.map (TyPat.map ρ) = d.2) :
    i.Supported E n impls := by
  intro t xs hd σ
  obtain ⟨j, hj, ys, ht, ρ, h1, h2⟩ := h _ hd
  refine ⟨j, hj, ys, ht, σ ∘ ρ, ?_, ?_⟩
  · rw [TyPat.inst_rename, h1]
  · have h2 : ys.map (TyPat.map ρ) = xs := h2
    rw [← h2, List.map_map]
    exact List.map_congr_left fun y _ => TyPat.inst_rename n ρ σ y

theorem supported_none {impls : List ImplBlock} {i : ImplBlock} {n : Nat} (h : i.demands = none) : i.Supported E n impls := by
  intro t xs hd; rw [h] at hd; cases hd

theorem TyPat.map_id (t : TyPat GVar) : t.map id = t := by
  induction t with
  | var _ => rfl
  | head _ => rfl
  | none => rfl
  | app f x hf hx => simp only [TyPat.map, hf, hx]
  | ref m t ht => simp only [TyPat.map, ht]

/-- `PartialEq` in place of `PartialOrd`. -/
def OperatorTrait.asEq (o : OperatorTrait) : OperatorTrait := ⟨.partialEq, o.lhs, o.rhs⟩

theorem numeric_mono {storages : List Storage} {o : OperatorTrait} (h : o ∈ iterNumericTraits []) : o ∈ iterNumericTraits storages := by
  unfold iterNumericTraits at h ⊢
  rw [List.flatMap_nil, List.append_nil] at h
  exact List.mem_append_left _ h
theorem numeric_single {storages : List Storage} {o : OperatorTrait} {ty : Storage} (ht : ty ∈ storages) (h : o ∈ iterNumericTraits [ty]) :
    o ∈ iterNumericTraits storages := by
  unfold iterNumericTraits at h ⊢
  rcases List.mem_append.1 h with h | h
  · exact List.mem_append_left _ h
  · obtain ⟨ty', h1, h2⟩ := List.mem_flatMap.1 h
    rw [List.mem_singleton.1 h1] at h2
    exact List.mem_append_right _ (List.mem_flatMap.2 ⟨ty, ht, h2⟩)

theorem asEq_mem (storages : List Storage) : ∀ o ∈ iterNumericTraits storages, o.name = .partialOrd → o.asEq ∈ iterNumericTraits storages := by
  intro o ho hn
  unfold iterNumericTraits at ho
  rcases List.mem_append.1 ho with ho | ho
  · refine numeric_mono ?_
    have : ∀ o ∈ iterNumericTraits [], o.name = .partialOrd → o.asEq ∈ iterNumericTraits [] := by decide +kernel
    exact this o (by unfold iterNumericTraits; exact List.mem_append_left _ ho) hn
  · obtain ⟨ty, ht, ho⟩ := List.mem_flatMap.1 ho
    refine numeric_single ht ?_
    have : ∀ ty, ∀ o ∈ iterNumericTraits [ty], o.name = .partialOrd → o.asEq ∈ iterNumericTraits [ty] := by intro ty; cases ty <;> decide +kernel
    exact this ty o (by unfold iterNumericTraits; exact List.mem_append_right _ (List.mem_flatMap.2 ⟨ty, List.mem_singleton.2 rfl, ho⟩)) hn

theorem asEq_genImpl {o : OperatorTrait} {i j : ImplSyn} (h : o.genImpl = some i) (h' : o.asEq.genImpl = some j) (hn : o.name = .partialOrd) :
    j.self = i.self ∧ j.rhs = i.rhs := by
  have e : o = ⟨.partialOrd, o.lhs, o.rhs⟩ := by rw [← hn]
  have h1 : o.asEq.lhsSyn = o.lhsSyn := by rw [e]; rfl
  have h2 : o.asEq.rhsSyn = o.rhsSyn := by rw [e]; rfl
  simp only [OperatorTrait.genImpl, Option.bind_eq_bind, Option.bind_eq_some_iff, Option.pure_def, Option.some.injEq] at h h'
  obtain ⟨r, hr, l, hl, out, -, rfl⟩ := h
  obtain ⟨r', hr', l', hl', out', -, rfl⟩ := h'
  rw [h1, hl] at hl'
  rw [h2, hr] at hr'
  cases hl'; cases hr'
  exact ⟨rfl, rfl⟩

theorem operator_supported (sys n : Nat) (storages : List Storage) (impls : List ImplBlock) (hsub : ∀ i ∈ operatorImpls sys storages, i ∈ impls) :
    ∀ i ∈ operatorImpls sys storages, i.Supported E n impls := by
  intro i hi
  obtain ⟨o, ho, hg⟩ := List.mem_filterMap.1 hi
  obtain ⟨impl, hi', -⟩ := C65_legal storages o ho
  rw [hi'] at hg
  cases hg
  by_cases hn : o.name = .partialOrd
  · have ho' := asEq_mem storages o ho hn
    obtain ⟨impl', hi'', -⟩ := C65_legal storages o.asEq ho'
    obtain ⟨e1, e2⟩ := asEq_genImpl hi' hi'' hn
    refine supported_of fun d hd => ?_
    rw [hn] at hd
    cases hd
    refine ⟨impl'.block sys .partialEq, hsub _ (List.mem_filterMap.2 ⟨o.asEq, ho', by rw [hi'']; rfl⟩), _, rfl, id, ?_⟩
    simp only [ImplSyn.block, List.map_cons, List.map_nil, TyPat.map_id, e1, e2, and_self]
  · refine supported_none ?_
    unfold ImplBlock.demands ImplSyn.block
    cases h : o.name <;> first | rfl | exact absurd h hn

/-- The storage types of the two sides made the same. -/
def oneStorage : GVar → GVar
  | .LHS | .RHS => .S
  | v => v

theorem general_eq_mem (sys : Nat) (storages : List Storage) :
    (⟨[.D, .LHS, .RHS], some (.op .partialEq, [quantityPat sys (.var .RHS) (.var .D)]), quantityPat sys (.var .LHS) (.var .D), [str!"eq"]⟩ : ImplBlock) ∈
      operatorImpls sys storages :=
  List.mem_filterMap.2 ⟨⟨.partialEq, qG, qG⟩, numeric_mono (by decide +kernel), rfl⟩

/-- **C67, supertraits.** Whatever features are on, wherever a block implements a trait that demands another (`PartialOrd` demands `PartialEq`, `Copy` demands
`Clone`, `Eq` demands `PartialEq`, and a type of const parameters demands `Eq`), that one is implemented by the generated code as well, for all arguments. -/
theorem C67_supported (sys n : Nat) (on : Feature → Bool) : ∀ i ∈ allImpls sys on, i.Supported E n (allImpls sys on) := by
  have hops : ∀ i ∈ operatorImpls sys (storageTypes on), i ∈ allImpls sys on := by
    intro i hi; unfold allImpls; simp only [List.mem_append]; tauto
  have hdim : ∀ i ∈ dimensionImpls sys, i ∈ allImpls sys on := by
    intro i hi; unfold allImpls; simp only [List.mem_append]; tauto
  have hq : ∀ i ∈ quantityImpls sys, i ∈ allImpls sys on := by
    intro i hi; unfold allImpls; simp only [List.mem_append]; tauto
  have hr : on .rand = true → ∀ i ∈ uniformDerives sys, i ∈ allImpls sys on := by
    intro h i hi; unfold allImpls; rw [h]; simp only [List.mem_append, if_true]; tauto
  have key : ∀ impls, impls = allImpls sys on → ∀ i ∈ allImpls sys on, i.Supported E n impls := by
    intro impls himpls
    rw [← himpls] at hops hdim hq hr
    unfold allImpls
    simp only [List.forall_mem_append]
    refine ⟨⟨⟨⟨⟨⟨⟨⟨⟨⟨⟨⟨⟨⟨?_, ?_⟩, ?_⟩, ?_⟩, ?_⟩, ?_⟩, ?_⟩, ?_⟩, ?_⟩, ?_⟩, ?_⟩, ?_⟩, ?_⟩, ?_⟩, ?_⟩
    · simp only [dimensionImpls, List.forall_mem_cons, List.not_mem_nil, false_implies, implies_true, and_true]
      refine ⟨supported_none rfl, ?_, supported_none rfl, supported_none rfl, ?_, supported_none rfl⟩
      · refine supported_of fun d hd => ?_
        cases hd
        exact ⟨_, hdim _ List.mem_cons_self, _, rfl, id, rfl, rfl⟩
      · refine supported_of fun d hd => ?_
        cases hd
        exact ⟨_, hdim _ (List.mem_cons_of_mem _ List.mem_cons_self), _, rfl, id, rfl, rfl⟩
    · simp only [quantityImpls, List.forall_mem_cons, List.not_mem_nil, false_implies, implies_true, and_true]
      refine ⟨supported_none rfl, ?_, ?_, supported_none rfl, supported_none rfl, supported_none rfl, supported_none rfl, supported_none rfl⟩
      · refine supported_of fun d hd => ?_
        cases hd
        exact ⟨_, hq _ List.mem_cons_self, _, rfl, id, rfl, rfl⟩
      · refine supported_of fun d hd => ?_
        cases hd
        exact ⟨_, hops _ (general_eq_mem sys _), _, rfl, oneStorage, rfl, rfl⟩
    · simp only [unitImpls, List.forall_mem_cons, List.not_mem_nil, false_implies, implies_true, and_true]
      repeat' refine And.intro ?_ ?_
      all_goals exact supported_none rfl
    · refine forall_mem_flat fun s => ?_
      simp only [unitStorageImpls, List.forall_mem_cons, List.not_mem_nil, false_implies, implies_true, and_true]
      repeat' refine And.intro ?_ ?_
      all_goals exact supported_none rfl
    · exact operator_supported sys n _ impls hops
    · simp only [sumNegFromImpls, List.forall_mem_cons, List.not_mem_nil, false_implies, implies_true, and_true]
      repeat' refine And.intro ?_ ?_
      all_goals exact supported_none rfl
    · simp only [debugImpl, List.forall_mem_cons, List.not_mem_nil, false_implies, implies_true, and_true]; exact supported_none rfl
    · refine forall_mem_if _ (forall_mem_flat fun f => ?_)
      intro x hx; obtain ⟨s, -, rfl⟩ := List.mem_map.1 hx; exact supported_none rfl
    · refine forall_mem_flat fun s => ?_
      intro x hx; rw [floatImpls, List.mem_singleton] at hx; subst hx; exact supported_none rfl
    · refine forall_mem_flat fun s => ?_
      intro x hx; simp only [vectorImpls, List.mem_singleton] at hx; subst hx; exact supported_none rfl
    · refine forall_mem_flat fun s => ?_
      intro x hx; rw [genericImpls, List.mem_singleton] at hx; subst hx; exact supported_none rfl
    · refine forall_mem_if _ ?_
      rw [List.forall_mem_cons]
      refine ⟨supported_none rfl, forall_mem_flat fun s => ?_⟩
      simp only [serdeImpls, List.forall_mem_cons, List.not_mem_nil, false_implies, implies_true, and_true]
      exact ⟨supported_none rfl, supported_none rfl, supported_none rfl⟩
    · refine forall_mem_if _ (forall_mem_flat fun s => ?_)
      intro x hx; rw [hdf5Impls, List.mem_singleton] at hx; subst hx; exact supported_none rfl
    · refine forall_mem_if _ (forall_mem_flat fun s => ?_)
      intro x hx; rw [mpiImpls, List.mem_singleton] at hx; subst hx; exact supported_none rfl
    · cases hrand : on .rand with
      | false => simp
      | true =>
      simp only [if_true, List.forall_mem_append]
      refine ⟨?_, forall_mem_flat fun s => ?_⟩
      · simp only [uniformDerives, List.forall_mem_cons, List.not_mem_nil, false_implies, implies_true, and_true]
        refine ⟨supported_none rfl, ?_, supported_none rfl⟩
        refine supported_of fun d hd => ?_
        cases hd
        exact ⟨_, hr hrand _ List.mem_cons_self, _, rfl, id, rfl, rfl⟩
      · simp only [randImpls, List.forall_mem_cons, List.not_mem_nil, false_implies, implies_true, and_true]
        exact ⟨supported_none rfl, supported_none rfl⟩
  exact key _ rfl

/-! ### Quantities of quantities -/

/-- **C67, the limit of the first part** (finding F29). The restriction to what is stored in a quantity matters: if quantities are stored in quantities, two of
the headers do apply to the same types. `Quantity<Quantity<f64, none>, none> + Quantity<f64, none>` is an instance of
`impl<D, LHS, RHS> Add<Quantity<RHS, D>> for Quantity<LHS, D>` and of `impl<S> Add<S> for Quantity<S, none>`; only the where clauses can tell them apart. -/
theorem C67_nested (sys n : Nat) (storages : List Storage) :
    ∃ i ∈ operatorImpls sys storages, ∃ j ∈ operatorImpls sys storages, i ≠ j ∧ ∃ xs ys, i.trait = some (.op .add, xs) ∧ j.trait = some (.op .add, ys) ∧
      ∃ σ τ : GVar → RTy E, i.self.inst n σ = j.self.inst n τ ∧ xs.map (TyPat.inst n σ) = ys.map (TyPat.inst n τ) := by
  let f64 : RTy E := .head (.storage .f64)
  let q : RTy E → RTy E := fun s => .app (.app (.head (.loc sys .quantity)) s) (.dim (DimVal.none n))
  refine ⟨_, List.mem_filterMap.2 ⟨⟨.add, qG, qG⟩, numeric_mono (by decide +kernel), rfl⟩,
    _, List.mem_filterMap.2 ⟨⟨.add, dG, sG⟩, numeric_mono (by decide +kernel), rfl⟩, ?_, _, _, rfl, rfl,
    fun v => if v = .D then .dim (DimVal.none n) else if v = .LHS then q f64 else f64, fun _ => q f64, rfl, rfl⟩
  intro h
  have h : [GVar.D, .LHS, .RHS] = [GVar.S] := congrArg ImplBlock.generics h
  exact absurd h (by decide)
end

/-! ### Examples: the rules can be broken -/

/-- There are many blocks: 466 with everything on, 86 with nothing. -/
example : (allImpls 0 fun _ => true).length = 466 ∧ (allImpls 0 fun _ => false).length = 86 := by decide +kernel

/-- Two references cannot be given an equality of their own, as the macro rightly does not: core has one for all references. -/
example (E : Type) [FieldOps E] (n : Nat) : ∃ b ∈ blanketImpls, Conflict E n n
    ⟨[.D, .S], some (.op .partialEq, [.ref false (quantityPat 0 (.var .S) (.var .D))]), .ref false (quantityPat 0 (.var .S) (.var .D)), [str!"eq"]⟩ b := by
  refine ⟨⟨[.D, .F], some (.op .partialEq, [.ref false (.var .F)]), .ref false (.var .D), []⟩, by decide +kernel, ⟨fun _ => .other [], fun v =>
    if v.isStorage then .other [] else .app (.app (.head (.loc 0 .quantity)) (.other [])) (.other []), ?_, ?_, rfl, rfl⟩, .inl ⟨_, _, _, rfl, rfl⟩⟩
  · intro v _; trivial
  · intro v hv
    simp only [hv, if_true]
    trivial

/-- Methods of the same name for the floats and for all storage types would be in conflict (`abs` is generated once per storage type). -/
example (E : Type) [FieldOps E] (n : Nat) (s : Storage) (on : Feature → Bool) (h : s ∈ storageTypes on) : ∃ i ∈ allImpls 0 on, Conflict E n n i
    ⟨[.S, .D], none, quantityPat 0 (.var .S) (.var .D), [str!"abs"]⟩ := by
  refine ⟨⟨[.D], none, quantityPat 0 (stPat s) (.var .D), [str!"abs"]⟩, ?_, ⟨fun _ => .other [], fun v => if v = .D then .other [] else .head (.storage s),
    ?_, ?_, rfl, trivial⟩, .inr ⟨rfl, rfl, str!"abs", List.mem_singleton.2 rfl, List.mem_singleton.2 rfl⟩⟩
  · have : (⟨[.D], none, quantityPat 0 (stPat s) (.var .D), [str!"abs"]⟩ : ImplBlock) ∈ (storageTypes on).flatMap (genericImpls 0) :=
      List.mem_flatMap.2 ⟨s, h, List.mem_singleton.2 rfl⟩
    unfold allImpls
    simp only [List.mem_append]
    tauto
  · intro v _; trivial
  · intro v hv
    show RTy.Foreign (if v = .D then _ else _)
    split <;> trivial

/-- A header with an unused parameter, one without a local type, and one without the required item, are not legal. -/
example : ¬ (⟨[.D, .S], none, runtimeUnitPat 0 .D, []⟩ : ImplBlock).GenericsLegal ∧
    ¬ (⟨[], some (.op .add, [stPat .f64]), stPat .f32, []⟩ : ImplBlock).OrphanLegal ∧
    ¬ (⟨[.D], some (.neg, []), runtimeUnitPat 0 .D, [str!"neg"]⟩ : ImplBlock).ItemsLegal := by
  refine ⟨?_, ?_, by decide +kernel⟩
  · intro h
    obtain ⟨t, ht, hv⟩ := (h.2 .S).1 (by decide)
    rw [List.mem_singleton.1 ht] at hv
    exact absurd hv (by decide)
  · rintro ⟨pre, t, post, h, hl, -⟩
    have : t ∈ [stPat .f32, stPat .f64] := by
      have : t ∈ pre ++ t :: post := by simp
      rw [← h] at this
      exact this
    simp only [List.mem_cons, List.not_mem_nil, or_false] at this
    rcases this with rfl | rfl <;> cases hl
end Diman
