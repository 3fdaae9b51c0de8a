import Verif.Spec.Mixing
import Verif.Props.C67
/-!
# C70 — Two unit systems in one program do not mix
-/
set_option linter.unusedSectionVars false
namespace Diman

/-! ### The blocks of system `k` are those of system 0, relabelled -/

def TyPat.relabel {V : Type} (k : Nat) : TyPat V → TyPat V
  | .head (.loc _ t) => .head (.loc k t)
  | .app f x => .app (f.relabel k) (x.relabel k)
  | .ref m t => .ref m (t.relabel k)
  | t => t
def ImplBlock.relabel (k : Nat) (i : ImplBlock) : ImplBlock :=
  ⟨i.generics, i.trait.map fun t => (t.1, t.2.map (TyPat.relabel k)), i.self.relabel k, i.items⟩

theorem StName.pat_relabel (k : Nat) (s : StName) : s.pat.relabel k = s.pat := by cases s <;> rfl
theorem RefKind.pat_relabel (k : Nat) (r : RefKind) (t : TyPat GVar) : (r.pat t).relabel k = r.pat (t.relabel k) := by cases r <;> rfl
theorem TypeSyn.pat_relabel (k sys : Nat) (t : TypeSyn) : (t.pat sys).relabel k = t.pat k := by
  cases t with
  | quantity r s d => cases d <;> simp [TypeSyn.pat, RefKind.pat_relabel, quantityPat, TyPat.relabel, StName.pat_relabel]
  | bare r s => simp [TypeSyn.pat, RefKind.pat_relabel, StName.pat_relabel]
theorem operatorImpls_relabel (k sys : Nat) (l : List Storage) : (operatorImpls sys l).map (ImplBlock.relabel k) = operatorImpls k l := by
  unfold operatorImpls
  rw [List.map_filterMap]
  refine congrArg (List.filterMap · _) (funext fun o => ?_)
  rw [Option.map_map]
  refine congrArg (Option.map · _) (funext fun i => ?_)
  simp [ImplSyn.block, ImplBlock.relabel, TypeSyn.pat_relabel]
theorem allImpls_relabel (k sys : Nat) (on : Feature → Bool) : (allImpls sys on).map (ImplBlock.relabel k) = allImpls k on := by
  unfold allImpls
  simp only [List.map_append, map_if_nil, List.map_flatMap, List.map_cons, List.map_nil, operatorImpls_relabel]
  have hd : ∀ l, (dimensionlessImpls sys l).map (ImplBlock.relabel k) = dimensionlessImpls k l := by
    intro l
    unfold dimensionlessImpls
    rw [List.map_flatMap]
    refine congrArg (List.flatMap · _) (funext fun f => ?_)
    rw [List.map_map]; rfl
  rw [hd]
  rfl

theorem mem_relabel {k : Nat} {on : Feature → Bool} {i : ImplBlock} (hi : i ∈ allImpls k on) :
    ∃ j ∈ maxImpls (hasMath on), i = j.relabel k := by
  rw [← allImpls_relabel k 0 on] at hi
  obtain ⟨j, hj, rfl⟩ := List.mem_map.1 hi
  exact ⟨j, (allImpls_sublist on).subset hj, rfl⟩

/-! ### The shapes of the headers -/

/-- What is behind references. -/
def TyPat.core {V : Type} : TyPat V → TyPat V
  | .ref _ t => t.core
  | t => t
/-- The parameters that are arguments of a type constructor. -/
def TyPat.argVars {V : Type} : TyPat V → List V
  | .app f (.var v) => v :: f.argVars
  | .app f _ => f.argVars
  | .ref _ t => t.argVars
  | _ => []

/-- The implementing type is a type of the system, or a foreign one; and in the first case the parameter of the trait is of the system too, or foreign, or
is the type of what is stored. -/
def ImplBlock.mixOk (i : ImplBlock) : Bool :=
  match i.trait with
  | some (_, [x]) => i.self.isForeign || (i.self.isLocal && (x.isLocal || x.isForeign || (match x.core with | .var v => decide (v ∈ i.self.argVars) | _ => false)))
  | _ => true

/-- The conversions. -/
def ImplBlock.fromOk (i : ImplBlock) : Bool :=
  match i.trait with
  | some (.from, [x]) =>
    decide (x = .var .S ∧ i.self = quantityPat 0 (.var .S) .none) || decide (x = unitPat 0 .D .F ∧ i.self = .head .magnitude) ||
      decide (x = runtimeUnitPat 0 .D ∧ i.self = .head .magnitude)
  | _ => true

/-- Compound assignments through references. -/
def ImplBlock.assignOk (i : ImplBlock) : Bool :=
  match i.trait, i.self with
  | some (.op t, _), .ref m _ => m || !(t == .addAssign || t == .subAssign || t == .mulAssign || t == .divAssign)
  | some (.op t, _), .var _ => !(t == .addAssign || t == .subAssign || t == .mulAssign || t == .divAssign)
  | _, _ => true

theorem max_assignOk (math : Bool) : ∀ i ∈ maxImpls math, i.assignOk = true := by cases math <;> decide +kernel

/-- The sums. -/
def ImplBlock.sumOk (i : ImplBlock) : Bool :=
  match i.trait with
  | some (.sum, [x]) => decide (x = quantityPat 0 (.var .S) (.var .D) ∧ i.self = quantityPat 0 (.var .S) (.var .D))
  | _ => true

theorem max_sumOk (math : Bool) : ∀ i ∈ maxImpls math, i.sumOk = true := by cases math <;> decide +kernel
theorem max_mixOk (math : Bool) : ∀ i ∈ maxImpls math, i.mixOk = true := by cases math <;> decide +kernel
theorem max_fromOk (math : Bool) : ∀ i ∈ maxImpls math, i.fromOk = true := by cases math <;> decide +kernel

section
variable {E : Type} [FieldOps E]

theorem RTy.Of.unique {a b : Nat} {t : RTy E} (ha : t.Of a) (hb : t.Of b) : a = b := by
  induction ha with
  | head t => cases hb; rfl
  | app x _ ih => cases hb; exact ih ‹_›
  | ref m _ ih => cases hb; exact ih ‹_›

theorem RTy.Of.not_foreign {a : Nat} {t : RTy E} (ha : t.Of a) : ¬ t.Foreign := by
  induction ha with
  | head t => exact fun h => h
  | app x _ ih => exact fun h => ih h.1
  | ref m _ ih => exact fun h => ih h

theorem relabel_isLocal {n k : Nat} {σ : GVar → RTy E} {t : TyPat GVar} (h : t.isLocal = true) : ((t.relabel k).inst n σ).Of k := by
  induction t with
  | var _ => cases h
  | none => cases h
  | head hd => cases hd <;> first | exact .head _ | cases h
  | app f x hf _ => exact .app _ (hf h)
  | ref m t ht => exact .ref _ (ht h)
theorem relabel_isForeign {n k : Nat} {σ : GVar → RTy E} {t : TyPat GVar} (h : t.isForeign = true) : ((t.relabel k).inst n σ).Foreign := by
  induction t with
  | var _ => cases h
  | none => cases h
  | head hd => cases hd <;> trivial
  | app f x _ _ => cases h
  | ref m t ht => exact ht h
theorem plain_args {n k : Nat} {σ : GVar → RTy E} {t : TyPat GVar} (h : ((t.relabel k).inst n σ).Plain) : ∀ v ∈ t.argVars, (σ v).Foreign := by
  induction t with
  | var _ => intro v hv; cases hv
  | none => intro v hv; cases hv
  | head hd => intro v hv; cases hv
  | app f x hf _ =>
    have h' : ((f.relabel k).inst n σ).Plain ∧ ((x.relabel k).inst n σ).Foreign := h
    cases x with
    | var w =>
      intro v hv
      rcases List.mem_cons.1 hv with rfl | hv
      · exact h'.2
      · exact hf h'.1 v hv
    | head _ => exact hf h'.1
    | app _ _ => exact hf h'.1
    | ref _ _ => exact hf h'.1
    | none => exact hf h'.1
  | ref m t ht => exact ht h
theorem core_foreign {n k : Nat} {σ : GVar → RTy E} {t : TyPat GVar} {v : GVar} (hc : t.core = .var v) (hv : (σ v).Foreign) :
    ((t.relabel k).inst n σ).Foreign := by
  induction t with
  | var w => cases hc; exact hv
  | none => cases hc
  | head hd => cases hc
  | app f x _ _ => cases hc
  | ref m t ht => exact ht hc

theorem relabel_trait {k : Nat} {j : ImplBlock} {t : TraitId} {x : TyPat GVar} (h : (j.relabel k).trait = some (t, [x])) :
    ∃ y, j.trait = some (t, [y]) ∧ x = y.relabel k := by
  unfold ImplBlock.relabel at h
  cases hj : j.trait with
  | none => rw [hj] at h; cases h
  | some p =>
    rw [hj] at h
    obtain ⟨t', ys⟩ := p
    match ys, h with
    | [], h => cases h
    | [y], h => cases h; exact ⟨y, rfl, rfl⟩
    | _ :: _ :: _, h => cases h

/-- **C70.** In a program with any unit systems, expanded with any features: no trait with a parameter (arithmetic, assignment, comparison, conversion, summing),
generated or of core, relates a type of one unit system to a type of another. (The types are of the systems `a` and `b`, behind any references; the first is
not made of types of unit systems, as to which see `C70_nested`.) -/
theorem C70_no_mixing (ss : List SystemInfo) {t : TraitId} {A B : RTy E} (h : TraitHolds ss t A B) {a b : Nat} (hA : A.Of a) (hB : B.Of b) (hp : A.Plain) :
    a = b := by
  induction h with
  | @generated s i t x σ hs hi ht =>
    obtain ⟨j, hj, rfl⟩ := mem_relabel hi
    obtain ⟨y, hy, rfl⟩ := relabel_trait ht
    have ok := max_mixOk _ j hj
    unfold ImplBlock.mixOk at ok
    rw [hy] at ok
    simp only [Bool.or_eq_true, Bool.and_eq_true] at ok
    rcases ok with hf | ⟨hl, (hl' | hf) | hv⟩
    · exact absurd (relabel_isForeign hf) hA.not_foreign
    · rw [hA.unique (relabel_isLocal hl), hB.unique (relabel_isLocal hl')]
    · exact absurd (relabel_isForeign hf) hB.not_foreign
    · split at hv
      · rename_i v hc
        exact absurd (core_foreign hc (plain_args hp v (of_decide_eq_true hv))) hB.not_foreign
      · cases hv
  | same A => exact hA.unique hB
  | eqRefs m m' _ ih => cases hA; cases hB; exact ih ‹_› ‹_› hp
  | ordRefs m _ ih => cases hA; cases hB; exact ih ‹_› ‹_› hp

/-- **C70, conversions.** The conversions in such a program (`B.into()` giving an `A`, that is `A::from(b)`) are exactly these: a value to its own type; a
value of any type to a dimensionless quantity that stores it; and a unit to its conversion factor. So no quantity becomes a quantity of another unit system, of
another dimension, or of another storage type, and none becomes a number. -/
theorem C70_conversions (ss : List SystemInfo) (A B : RTy E) :
    TraitHolds ss .from A B ↔
      A = B ∨ (∃ s ∈ ss, A = .quantityOf s.sys B (.dim (DimVal.none s.baseDims))) ∨
      (A = .head .magnitude ∧ ∃ s ∈ ss, ∃ D, (∃ F, B = .unitOf s.sys D F) ∨ B = .runtimeUnitOf s.sys D) := by
  constructor
  · intro h
    generalize ht : TraitId.from = t at h
    cases h with
    | @generated s i t x σ hs hi ht' =>
      subst ht
      obtain ⟨j, hj, rfl⟩ := mem_relabel hi
      obtain ⟨y, hy, rfl⟩ := relabel_trait ht'
      have ok := max_fromOk _ j hj
      unfold ImplBlock.fromOk at ok
      rw [hy] at ok
      simp only [Bool.or_eq_true, decide_eq_true_eq] at ok
      rcases ok with (⟨rfl, e⟩ | ⟨rfl, e⟩) | ⟨rfl, e⟩
      · refine .inr (.inl ⟨s, hs, ?_⟩)
        show (j.self.relabel s.sys).inst s.baseDims σ = _
        rw [e]; rfl
      · refine .inr (.inr ⟨?_, s, hs, σ .D, .inl ⟨σ .F, rfl⟩⟩)
        show (j.self.relabel s.sys).inst s.baseDims σ = _
        rw [e]; rfl
      · refine .inr (.inr ⟨?_, s, hs, σ .D, .inr rfl⟩)
        show (j.self.relabel s.sys).inst s.baseDims σ = _
        rw [e]; rfl
    | same => exact .inl rfl
    | eqRefs _ _ _ => cases ht
    | ordRefs _ _ => cases ht
  · rintro (rfl | ⟨s, hs, rfl⟩ | ⟨rfl, s, hs, D, ⟨F, rfl⟩ | rfl⟩)
    · exact .same _
    · have hi : (⟨[.S], some (.from, [.var .S]), quantityPat s.sys (.var .S) .none, [str!"from"]⟩ : ImplBlock) ∈ allImpls s.sys s.on := by
        have : (⟨[.S], some (.from, [.var .S]), quantityPat s.sys (.var .S) .none, [str!"from"]⟩ : ImplBlock) ∈ sumNegFromImpls s.sys := by
          simp [sumNegFromImpls]
        unfold allImpls; simp only [List.mem_append]; tauto
      exact TraitHolds.generated (σ := fun _ => B) hs hi rfl
    · have hi : (⟨[.D, .F], some (.from, [unitPat s.sys .D .F]), .head .magnitude, [str!"from"]⟩ : ImplBlock) ∈ allImpls s.sys s.on := by
        have : (⟨[.D, .F], some (.from, [unitPat s.sys .D .F]), .head .magnitude, [str!"from"]⟩ : ImplBlock) ∈ unitImpls s.sys := by
          simp [unitImpls]
        unfold allImpls; simp only [List.mem_append]; tauto
      exact TraitHolds.generated (σ := fun v => if v = .D then D else F) hs hi rfl
    · have hi : (⟨[.D], some (.from, [runtimeUnitPat s.sys .D]), .head .magnitude, [str!"from"]⟩ : ImplBlock) ∈ allImpls s.sys s.on := by
        have : (⟨[.D], some (.from, [runtimeUnitPat s.sys .D]), .head .magnitude, [str!"from"]⟩ : ImplBlock) ∈ unitImpls s.sys := by
          simp [unitImpls]
        unfold allImpls; simp only [List.mem_append]; tauto
      exact TraitHolds.generated (σ := fun _ => D) hs hi rfl

/-- **C70, sums.** The iterators that can be summed to a value of a type of a unit system, by the code of the unit systems, are those over quantities, and the sum
is a quantity of the same unit system, dimension and storage type as the items. -/
theorem C70_sums (ss : List SystemInfo) (A B : RTy E) :
    TraitHolds ss .sum A B ↔ A = B ∧ ∃ s ∈ ss, ∃ S D, A = .quantityOf s.sys S D := by
  constructor
  · intro h
    generalize ht : TraitId.sum = t at h
    cases h with
    | @generated s i t x σ hs hi ht' =>
      subst ht
      obtain ⟨j, hj, rfl⟩ := mem_relabel hi
      obtain ⟨y, hy, rfl⟩ := relabel_trait ht'
      have ok := max_sumOk _ j hj
      unfold ImplBlock.sumOk at ok
      rw [hy] at ok
      simp only [decide_eq_true_eq] at ok
      obtain ⟨rfl, e⟩ := ok
      have e' : (j.relabel s.sys).self = (quantityPat 0 (.var .S) (.var .D)).relabel s.sys := by
        show j.self.relabel s.sys = _
        rw [e]
      rw [e']
      exact ⟨rfl, s, hs, σ .S, σ .D, rfl⟩
    | same => cases ht
    | eqRefs _ _ _ => cases ht
    | ordRefs _ _ => cases ht
  · rintro ⟨rfl, s, hs, S, D, rfl⟩
    have hi : (⟨[.D, .S], some (.sum, [quantityPat s.sys (.var .S) (.var .D)]), quantityPat s.sys (.var .S) (.var .D), [str!"sum"]⟩ : ImplBlock) ∈
        allImpls s.sys s.on := by
      have : (⟨[.D, .S], some (.sum, [quantityPat s.sys (.var .S) (.var .D)]), quantityPat s.sys (.var .S) (.var .D), [str!"sum"]⟩ : ImplBlock) ∈
          sumNegFromImpls s.sys := by simp [sumNegFromImpls]
      unfold allImpls; simp only [List.mem_append]; tauto
    exact TraitHolds.generated (σ := fun v => if v = .S then S else D) hs hi rfl

/-- **C70, assignment.** `+=`, `-=`, `*=` and `/=` change nothing through a shared reference: where a reference has them, it is a mutable one. -/
theorem C70_assign_mutable (ss : List SystemInfo) {t : Trait} (ht : t = .addAssign ∨ t = .subAssign ∨ t = .mulAssign ∨ t = .divAssign) (m : Bool) (A B : RTy E)
    (h : TraitHolds ss (.op t) (.ref m A) B) : m = true := by
  generalize hx : RTy.ref m A = X at h
  generalize ht' : TraitId.op t = u at h
  cases h with
  | @generated s i t' x σ hs hi e =>
    subst ht'
    obtain ⟨j, hj, rfl⟩ := mem_relabel hi
    obtain ⟨y, hy, rfl⟩ := relabel_trait e
    have ok := max_assignOk _ j hj
    unfold ImplBlock.assignOk at ok
    rw [hy] at ok
    have hx : (j.self.relabel s.sys).inst s.baseDims σ = RTy.ref m A := hx.symm
    have ht'' : (t == .addAssign || t == .subAssign || t == .mulAssign || t == .divAssign) = true := by
      rcases ht with rfl | rfl | rfl | rfl <;> rfl
    cases hs' : j.self with
    | ref m' p =>
      rw [hs'] at ok hx
      simp only [ht'', Bool.not_true, Bool.or_false] at ok
      cases hx
      exact ok
    | var v => rw [hs'] at ok; simp [ht''] at ok
    | head h => cases h <;> (rw [hs'] at hx; cases hx)
    | _ => rw [hs'] at hx; cases hx
  | same => cases ht'
  | eqRefs _ _ _ => cases ht'; simp at ht
  | ordRefs _ _ => cases ht'; simp at ht

/-- **C70, between quantities.** A quantity converts to no quantity with a storage type of its own but itself: not of another unit system, dimension or storage
type. -/
theorem C70_between_quantities (ss : List SystemInfo) (a b : Nat) (S S' D D' : RTy E) (hS : S.Foreign) :
    TraitHolds ss .from (.quantityOf a S D) (.quantityOf b S' D') ↔ a = b ∧ S = S' ∧ D = D' := by
  rw [C70_conversions]
  constructor
  · rintro (h | ⟨s, -, h⟩ | ⟨h, -⟩)
    · cases h; exact ⟨rfl, rfl, rfl⟩
    · unfold RTy.quantityOf at h
      simp only [RTy.app.injEq] at h
      rw [h.1.2] at hS
      exact absurd hS.1.1 id
    · cases h
  · rintro ⟨rfl, rfl, rfl⟩; exact .inl rfl

/-- **C70, the hole** (finding F32). `value_in` asks of its argument only that it converts to a conversion factor (quantity_type.rs:61-63), and the units of
every unit system in the program do: a quantity of one system can be read out "in" a unit of another, whose factor is relative to other base units. -/
theorem C70_value_in_mixes (ss : List SystemInfo) (s : SystemInfo) (hs : s ∈ ss) (D F : RTy E) :
    TraitHolds ss .from (.head .magnitude) (.unitOf s.sys D F) ∧ TraitHolds ss .from (.head .magnitude) (.runtimeUnitOf s.sys D) :=
  ⟨(C70_conversions ss _ _).2 (.inr (.inr ⟨rfl, s, hs, D, .inl ⟨F, rfl⟩⟩)), (C70_conversions ss _ _).2 (.inr (.inr ⟨rfl, s, hs, D, .inr rfl⟩))⟩

/-- **C70, why the first type has to be plain.** A dimensionless quantity of one system can store a quantity of another (`A::from(b)` makes one), and the
quantity of the other system can be added to that. -/
theorem C70_nested (ss : List SystemInfo) (s : SystemInfo) (hs : s ∈ ss) (b : Nat) (S D : RTy E) :
    TraitHolds ss .from (.quantityOf s.sys (.quantityOf b S D) (.dim (DimVal.none s.baseDims))) (.quantityOf b S D) ∧
    TraitHolds ss (.op .add) (.quantityOf s.sys (.quantityOf b S D) (.dim (DimVal.none s.baseDims))) (.quantityOf b S D) := by
  refine ⟨(C70_conversions ss _ _).2 (.inr (.inl ⟨s, hs, rfl⟩)), ?_⟩
  have hi : (⟨[.S], some (.op .add, [.var .S]), quantityPat s.sys (.var .S) .none, [str!"Output", str!"add"]⟩ : ImplBlock) ∈ allImpls s.sys s.on := by
    have : (⟨[.S], some (.op .add, [.var .S]), quantityPat s.sys (.var .S) .none, [str!"Output", str!"add"]⟩ : ImplBlock) ∈
        operatorImpls s.sys (storageTypes s.on) :=
      List.mem_filterMap.2 ⟨⟨.add, dG, sG⟩, numeric_mono (by decide +kernel), rfl⟩
    unfold allImpls; simp only [List.mem_append]; tauto
  exact TraitHolds.generated (σ := fun _ => .quantityOf b S D) hs hi rfl
end

/-! ### Examples -/

theorem mem_operators {sys : Nat} {on : Feature → Bool} {i : ImplBlock} (h : i ∈ operatorImpls sys (storageTypes on)) : i ∈ allImpls sys on := by
  unfold allImpls; simp only [List.mem_append]; tauto

/-- Two systems in one program. -/
def C70.two : List SystemInfo := [⟨0, 2, fun _ => true⟩, ⟨1, 3, fun f => decide (f = .f64)⟩]
/-- A length of the first, and one of the second. -/
def C70.l0 : RTy Int := .quantityOf 0 (.head (.storage .f64)) (.dim [1, 0])
def C70.l1 : RTy Int := .quantityOf 1 (.head (.storage .f64)) (.dim [1, 0, 0])

/-- Within a system there is addition, also of references, and comparison through references; the hypotheses of `C70_no_mixing` are met. -/
example : TraitHolds C70.two (.op .add) C70.l1 C70.l1 ∧ TraitHolds C70.two (.op .partialEq) (.ref false C70.l0) (.ref true C70.l0) ∧ C70.l1.Plain ∧ C70.l1.Of 1 := by
  have heq : TraitHolds C70.two (.op .partialEq) C70.l0 C70.l0 :=
    TraitHolds.generated (E := Int) (s := ⟨0, 2, fun _ => true⟩) (σ := fun v => if v = .D then .dim [1, 0] else .head (.storage .f64)) (by simp [C70.two])
      (mem_operators (general_eq_mem 0 (storageTypes fun _ => true))) rfl
  refine ⟨?_, .eqRefs _ _ heq, ⟨⟨trivial, trivial⟩, trivial⟩, .app _ (.app _ (.head _))⟩
  refine TraitHolds.generated (E := Int) (s := ⟨1, 3, fun f => decide (f = .f64)⟩) (i := ⟨[.D, .LHS, .RHS], some (.op .add, [quantityPat 1 (.var .RHS) (.var .D)]),
    quantityPat 1 (.var .LHS) (.var .D), [str!"Output", str!"add"]⟩) (σ := fun v => if v = .D then .dim [1, 0, 0] else .head (.storage .f64))
    (by simp [C70.two]) ?_ rfl
  have : (⟨[.D, .LHS, .RHS], some (.op .add, [quantityPat 1 (.var .RHS) (.var .D)]), quantityPat 1 (.var .LHS) (.var .D),
      [str!"Output", str!"add"]⟩ : ImplBlock) ∈ operatorImpls 1 (storageTypes fun f => decide (f = .f64)) :=
    List.mem_filterMap.2 ⟨⟨.add, qG, qG⟩, numeric_mono (by decide +kernel), rfl⟩
  unfold allImpls; simp only [List.mem_append]; tauto

/-- Between the two there is nothing: no sum, no difference, no comparison, no product, no summing up. -/
example (t : TraitId) : ¬ TraitHolds C70.two t C70.l0 C70.l1 := by
  intro h
  exact absurd (C70_no_mixing (a := 0) (b := 1) _ h (.app _ (.app _ (.head _))) (.app _ (.app _ (.head _))) ⟨⟨trivial, trivial⟩, trivial⟩) (by decide)
end Diman
