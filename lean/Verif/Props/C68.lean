import Verif.Spec.MethodCall
import Verif.Props.C55
/-!
# C68 — Which method a call on a quantity means
-/
set_option linter.unusedSectionVars false
namespace Diman
section
variable {E : Type} [FieldOps E]

/-! ### The methods of the generated blocks -/

/-- What the table says for a quantity of dimension `d`. -/
def Table (on : Feature → Bool) (n : Nat) (s : RTy E) (d : DimVal E) (m : Str) : Prop :=
  QuantityMethod on s m ∨ (d = DimVal.none n ∧ DimensionlessMethod on s m)

/-- The block has `m` for `Quantity<s, d>` only if the table says so. -/
def Sound (on : Feature → Bool) (sys n : Nat) (m : Str) (i : ImplBlock) : Prop :=
  ∀ (s : RTy E) d, i.trait = none → m ∈ i.methods → (∃ σ, i.self.inst n σ = RTy.quantity sys s d) → Table on n s d m

theorem sound_trait {on : Feature → Bool} {sys n : Nat} {m : Str} {i : ImplBlock} {t} (h : i.trait = some t) : Sound (E := E) on sys n m i := by
  intro s d ht; rw [h] at ht; cases ht

theorem forall_mem_flat' {α β : Type} {l : List α} {f : α → List β} {P : β → Prop} (h : ∀ a ∈ l, ∀ x ∈ f a, P x) : ∀ x ∈ l.flatMap f, P x := by
  intro x hx
  obtain ⟨a, ha, hx⟩ := List.mem_flatMap.1 hx
  exact h a ha x hx
theorem forall_mem_if' {α : Type} (b : Bool) {l : List α} {P : α → Prop} (h : b = true → ∀ x ∈ l, P x) : ∀ x ∈ (if b then l else []), P x := by
  cases b
  · intro x hx; cases hx
  · exact h rfl

theorem inst_quantity {sys n : Nat} {a b : TyPat GVar} {s : RTy E} {d : DimVal E} {σ : GVar → RTy E}
    (h : (quantityPat sys a b).inst n σ = RTy.quantity sys s d) : a.inst n σ = s ∧ b.inst n σ = .dim d := by
  simp only [quantityPat, TyPat.inst, RTy.quantity, RTy.app.injEq] at h
  exact ⟨h.1.2, h.2⟩

theorem float_table (math : Bool) (sys : Nat) (st : Storage) : ∀ i ∈ floatImpls sys math st, ∀ m ∈ i.methods,
    m ∈ floatMethods ∨ (m ∈ rootMethods ∧ math = true) := by
  intro i hi
  rw [floatImpls, List.mem_singleton] at hi
  subst hi
  simp only [ImplBlock.methods, quantityPat]
  cases math <;> decide +kernel
theorem vector_table (sys : Nat) (st : Storage) : ∀ i ∈ vectorImpls sys st, ∀ m ∈ i.methods,
    m ∈ vectorMethods ∨ (m ∈ vector3Methods ∧ st.numDims = 3) := by
  intro i hi
  simp only [vectorImpls, List.mem_singleton] at hi
  subst hi
  simp only [ImplBlock.methods, quantityPat]
  cases st <;> decide +kernel

theorem all_sound (sys n : Nat) (on : Feature → Bool) (m : Str) : ∀ i ∈ allImpls sys on, Sound (E := E) on sys n m i := by
  unfold allImpls
  simp only [List.forall_mem_append]
  refine ⟨⟨⟨⟨⟨⟨⟨⟨⟨⟨⟨⟨⟨⟨?_, ?_⟩, ?_⟩, ?_⟩, ?_⟩, ?_⟩, ?_⟩, ?_⟩, ?_⟩, ?_⟩, ?_⟩, ?_⟩, ?_⟩, ?_⟩, ?_⟩
  · simp only [dimensionImpls, List.forall_mem_cons, List.not_mem_nil, false_implies, implies_true, and_true]
    refine ⟨sound_trait rfl, sound_trait rfl, sound_trait rfl, sound_trait rfl, sound_trait rfl, ?_⟩
    rintro s d - - ⟨σ, h⟩
    cases h
  · simp only [quantityImpls, List.forall_mem_cons, List.not_mem_nil, false_implies, implies_true, and_true]
    refine ⟨sound_trait rfl, sound_trait rfl, sound_trait rfl, sound_trait rfl, ?_, ?_, ?_, sound_trait rfl⟩
    · rintro s d - hm ⟨σ, h⟩
      obtain ⟨-, hd⟩ := inst_quantity h
      have hd : d = DimVal.none n := by cases hd; rfl
      have hm : m ∈ [str!"value", str!"value_ref"] := hm
      simp only [List.mem_cons, List.not_mem_nil, or_false] at hm
      exact .inr ⟨hd, .inr (by tauto)⟩
    · rintro s d - hm -
      have hm : m ∈ [str!"value_unchecked", str!"value_unchecked_ref"] := hm
      refine .inl (.inl ?_)
      simp only [commonMethods, List.mem_cons, List.not_mem_nil, or_false] at hm ⊢
      tauto
    · rintro s d - hm -
      have hm : m ∈ [str!"value_in"] := hm
      refine .inl (.inl ?_)
      simp only [commonMethods, List.mem_cons, List.not_mem_nil, or_false] at hm ⊢
      tauto
  · simp only [unitImpls, List.forall_mem_cons, List.not_mem_nil, false_implies, implies_true, and_true]
    repeat' refine And.intro ?_ ?_
    all_goals first
      | exact sound_trait rfl
      | (rintro s d - - ⟨σ, h⟩; cases h)
  · refine forall_mem_flat' fun st hst => ?_
    simp only [unitStorageImpls, List.forall_mem_cons, List.not_mem_nil, false_implies, implies_true, and_true]
    repeat' refine And.intro ?_ ?_
    all_goals exact sound_trait rfl
  · intro i hi
    obtain ⟨o, ho, hg⟩ := List.mem_filterMap.1 hi
    obtain ⟨impl, -, rfl⟩ := Option.map_eq_some_iff.1 hg
    exact sound_trait rfl
  · simp only [sumNegFromImpls, List.forall_mem_cons, List.not_mem_nil, false_implies, implies_true, and_true]
    exact ⟨sound_trait rfl, sound_trait rfl, sound_trait rfl⟩
  · simp only [debugImpl, List.forall_mem_cons, List.not_mem_nil, false_implies, implies_true, and_true]; exact sound_trait rfl
  · refine forall_mem_if' _ fun hmath => forall_mem_flat' fun f _ => ?_
    intro x hx
    obtain ⟨st, hst, rfl⟩ := List.mem_map.1 hx
    rintro s d - hm ⟨σ, h⟩
    obtain ⟨hs, hd⟩ := inst_quantity h
    have hd : d = DimVal.none n := by cases hd; rfl
    have hm : m ∈ functionMethods := by
      have key : ∀ f : FloatFn, ∀ m ∈ (⟨[], none, quantityPat 0 (stPat .f32) .none, [f.rustName]⟩ : ImplBlock).methods, m ∈ functionMethods := by
        intro f; cases f <;> decide +kernel
      exact key f m hm
    obtain ⟨h1, h2⟩ := mem_floatTypes.1 hst
    exact .inr ⟨hd, .inr (.inr (.inr ⟨hm, hmath, st, hs.symm, h2, h1⟩))⟩
  · refine forall_mem_flat' fun st hst i hi => ?_
    rintro s d - hm ⟨σ, h⟩
    have ht := float_table _ _ _ i hi m hm
    rw [floatImpls, List.mem_singleton] at hi
    subst hi
    obtain ⟨h1, h2⟩ := mem_floatTypes.1 hst
    exact .inl (.inr ⟨st, (inst_quantity h).1.symm, h2, .inr (.inl ⟨h1, ht⟩)⟩)
  · refine forall_mem_flat' fun st hst i hi => ?_
    rintro s d - hm ⟨σ, h⟩
    have ht := vector_table _ _ i hi m hm
    simp only [vectorImpls, List.mem_singleton] at hi
    subst hi
    obtain ⟨h1, h2⟩ := mem_vectorTypes.1 hst
    exact .inl (.inr ⟨st, (inst_quantity h).1.symm, h2, .inr (.inr ⟨by simpa [Storage.isVector] using h1, ht⟩)⟩)
  · refine forall_mem_flat' fun st hst i hi => ?_
    rintro s d - hm ⟨σ, h⟩
    rw [genericImpls, List.mem_singleton] at hi
    subst hi
    have hm : m ∈ [str!"abs"] := hm
    exact .inl (.inr ⟨st, (inst_quantity h).1.symm, mem_storageTypes.1 hst, .inl (List.mem_singleton.1 hm)⟩)
  · refine forall_mem_if' _ fun _ => ?_
    rw [List.forall_mem_cons]
    refine ⟨sound_trait rfl, forall_mem_flat' fun s _ => ?_⟩
    simp only [serdeImpls, List.forall_mem_cons, List.not_mem_nil, false_implies, implies_true, and_true]
    exact ⟨sound_trait rfl, sound_trait rfl, sound_trait rfl⟩
  · refine forall_mem_if' _ fun _ => forall_mem_flat' fun s _ => ?_
    intro x hx; rw [hdf5Impls, List.mem_singleton] at hx; subst hx; exact sound_trait rfl
  · refine forall_mem_if' _ fun _ => forall_mem_flat' fun s _ => ?_
    intro x hx; rw [mpiImpls, List.mem_singleton] at hx; subst hx; exact sound_trait rfl
  · refine forall_mem_if' _ fun _ => ?_
    simp only [List.forall_mem_append]
    refine ⟨?_, forall_mem_flat' fun s _ => ?_⟩
    · simp only [uniformDerives, List.forall_mem_cons, List.not_mem_nil, false_implies, implies_true, and_true]
      exact ⟨sound_trait rfl, sound_trait rfl, sound_trait rfl⟩
    · simp only [randImpls, List.forall_mem_cons, List.not_mem_nil, false_implies, implies_true, and_true]
      exact ⟨sound_trait rfl, sound_trait rfl⟩

theorem floatImpls_has (sys : Nat) (math : Bool) (st : Storage) {m : Str} (h : m ∈ floatMethods ∨ (m ∈ rootMethods ∧ math = true)) :
    ∃ items, (⟨[.D], none, quantityPat sys (stPat st) (.var .D), items⟩ : ImplBlock) ∈ floatImpls sys math st ∧
      m ∈ (⟨[.D], none, quantityPat sys (stPat st) (.var .D), items⟩ : ImplBlock).methods := by
  refine ⟨_, List.mem_singleton.2 rfl, ?_⟩
  simp only [ImplBlock.methods, quantityPat]
  have key : ∀ math : Bool, ∀ m ∈ floatMethods ++ (if math then rootMethods else []), m ∈ ((([str!"squared", str!"cubed", str!"powi"] ++
      (if math then [str!"sqrt", str!"cbrt"] else []) ++
      [str!"min", str!"max", str!"clamp", str!"zero", str!"is_positive", str!"is_positive_or_zero", str!"is_negative", str!"is_negative_or_zero",
       str!"is_nan"]).filter fun x => !(decide (x ∈ [str!"new_unchecked", str!"zero", str!"new", str!"new_x", str!"new_y", str!"new_z"]))) : List Str) := by
    intro math; cases math <;> decide +kernel
  refine key math m ?_
  rcases h with h | ⟨h, rfl⟩
  · exact List.mem_append_left _ h
  · exact List.mem_append_right _ h

theorem vectorImpls_has (sys : Nat) (st : Storage) {m : Str} (h : m ∈ vectorMethods ∨ (m ∈ vector3Methods ∧ st.numDims = 3)) :
    ∃ items, (⟨[.D], none, quantityPat sys (stPat st) (.var .D), items⟩ : ImplBlock) ∈ vectorImpls sys st ∧
      m ∈ (⟨[.D], none, quantityPat sys (stPat st) (.var .D), items⟩ : ImplBlock).methods := by
  refine ⟨_, List.mem_singleton.2 rfl, ?_⟩
  simp only [ImplBlock.methods, quantityPat]
  have key : ∀ three : Bool, ∀ m ∈ vectorMethods ++ (if three then vector3Methods else []), m ∈ ((([str!"new", str!"new_x", str!"new_y"] ++
      (if three then [str!"new_z"] else []) ++ [str!"x", str!"y"] ++ (if three then [str!"z"] else []) ++
      [str!"set_x", str!"set_y"] ++ (if three then [str!"set_z"] else []) ++
      [str!"zero", str!"min", str!"max", str!"length", str!"distance", str!"distance_squared", str!"normalize", str!"dot"]).filter
        fun x => !(decide (x ∈ [str!"new_unchecked", str!"zero", str!"new", str!"new_x", str!"new_y", str!"new_z"]))) : List Str) := by
    intro three; cases three <;> decide +kernel
  refine key (st.numDims == 3) m ?_
  rcases h with h | ⟨h, h3⟩
  · exact List.mem_append_left _ h
  · rw [h3]; exact List.mem_append_right _ h

/-- The instance of a header of quantities with a free dimension. -/
theorem inst_free (sys n : Nat) (st : Storage) (d : DimVal E) :
    ∃ σ : GVar → RTy E, (quantityPat sys (stPat st) (.var .D)).inst n σ = RTy.quantity sys (.head (.storage st)) d := ⟨fun _ => .dim d, rfl⟩

theorem all_complete (sys n : Nat) (on : Feature → Bool) {m : Str} {s : RTy E} {d : DimVal E} (h : Table on n s d m) :
    ∃ i ∈ allImpls sys on, i.trait = none ∧ m ∈ i.methods ∧ ∃ σ, i.self.inst n σ = RTy.quantity sys s d := by
  have hq : ∀ i ∈ quantityImpls sys, i ∈ allImpls sys on := by
    intro i hi; unfold allImpls; simp only [List.mem_append]; tauto
  have main : ∀ d, QuantityMethod on s m → ∃ i ∈ allImpls sys on, i.trait = none ∧ m ∈ i.methods ∧ ∃ σ, i.self.inst n σ = RTy.quantity sys s d := by
    intro d h
    rcases h with h | ⟨st, rfl, hst, h⟩
    · have : m ∈ [str!"value_unchecked", str!"value_unchecked_ref"] ∨ m ∈ [str!"value_in"] := by
        simp only [commonMethods, List.mem_cons, List.not_mem_nil, or_false] at h ⊢; tauto
      rcases this with h | h
      · exact ⟨⟨[.S, .D], none, quantityPat sys (.var .S) (.var .D), [str!"value_unchecked", str!"value_unchecked_ref", str!"new_unchecked"]⟩,
          hq _ (by simp [quantityImpls]), rfl, h, fun v => if v = .D then .dim d else s, rfl⟩
      · exact ⟨⟨[.D, .S], none, quantityPat sys (.var .S) (.var .D), [str!"value_in"]⟩,
          hq _ (by simp [quantityImpls]), rfl, h, fun v => if v = .D then .dim d else s, rfl⟩
    rcases h with rfl | ⟨hf, h⟩ | ⟨hf, h⟩
    · refine ⟨⟨[.D], none, quantityPat sys (stPat st) (.var .D), [str!"abs"]⟩, ?_, rfl, List.mem_cons_self, inst_free sys n st d⟩
      have : (⟨[.D], none, quantityPat sys (stPat st) (.var .D), [str!"abs"]⟩ : ImplBlock) ∈ (storageTypes on).flatMap (genericImpls sys) :=
        List.mem_flatMap.2 ⟨st, mem_storageTypes.2 hst, List.mem_singleton.2 rfl⟩
      unfold allImpls; simp only [List.mem_append]; tauto
    · obtain ⟨items, hi, hm⟩ := floatImpls_has sys (hasMath on) st h
      refine ⟨_, ?_, rfl, hm, inst_free sys n st d⟩
      have := List.mem_flatMap.2 ⟨st, mem_floatTypes.2 ⟨hf, hst⟩, hi⟩
      unfold allImpls; simp only [List.mem_append]; tauto
    · obtain ⟨items, hi, hm⟩ := vectorImpls_has sys st h
      refine ⟨_, ?_, rfl, hm, inst_free sys n st d⟩
      have := List.mem_flatMap.2 ⟨st, mem_vectorTypes.2 ⟨by simp [Storage.isVector, hf], hst⟩, hi⟩
      unfold allImpls; simp only [List.mem_append]; tauto
  rcases h with h | ⟨rfl, h | h | h | ⟨hm, hmath, st, rfl, hst, hf⟩⟩
  · exact main d h
  · exact main _ h
  · exact ⟨⟨[.S], none, quantityPat sys (.var .S) .none, [str!"value", str!"value_ref"]⟩, hq _ (by simp [quantityImpls]), rfl,
      by rw [h]; exact List.mem_cons_self, fun _ => s, rfl⟩
  · exact ⟨⟨[.S], none, quantityPat sys (.var .S) .none, [str!"value", str!"value_ref"]⟩, hq _ (by simp [quantityImpls]), rfl,
      by rw [h]; exact List.mem_cons_of_mem _ List.mem_cons_self, fun _ => s, rfl⟩
  · have : ∃ f : FloatFn, f ∈ FloatFn.list ∧ f.rustName = m := by
      have key : ∀ m ∈ functionMethods, ∃ f ∈ FloatFn.list, f.rustName = m := by decide +kernel
      exact key m hm
    obtain ⟨f, hfl, rfl⟩ := this
    refine ⟨⟨[], none, quantityPat sys (stPat st) .none, [f.rustName]⟩, ?_, rfl, ?_, fun _ => .dim (DimVal.none n), rfl⟩
    · have : (⟨[], none, quantityPat sys (stPat st) .none, [f.rustName]⟩ : ImplBlock) ∈ dimensionlessImpls sys (floatTypes on) :=
        List.mem_flatMap.2 ⟨f, hfl, List.mem_map.2 ⟨st, mem_floatTypes.2 ⟨hf, hst⟩, rfl⟩⟩
      unfold allImpls; rw [hmath]; simp only [List.mem_append, if_true]; tauto
    · have key : ∀ f : FloatFn, f.rustName ∈ (⟨[], none, quantityPat 0 (stPat .f32) .none, [f.rustName]⟩ : ImplBlock).methods := by
        intro f; cases f <;> decide +kernel
      exact key f

theorem quantity_not_foreign {sys : Nat} {s : RTy E} {d : DimVal E} : ¬ (RTy.quantity sys s d).Foreign := fun h => h.1.1

theorem has_iff {w : Foreigners E} (hw : w.Fair) (sys n : Nat) (on : Feature → Bool) (s : RTy E) (d : DimVal E) (m : Str) :
    HasMethod w (allImpls sys on) n (RTy.quantity sys s d) m ↔ Table on n s d m := by
  constructor
  · rintro (⟨i, hi, ht, hm, hσ⟩ | h)
    · exact all_sound sys n on m i hi s d ht hm hσ
    · exact absurd (hw.1 _ _ h) quantity_not_foreign
  · intro h
    exact .inl (all_complete sys n on h)

/-! ### Dereferencing -/

theorem deref_only (sys : Nat) (on : Feature → Bool) : ∀ i ∈ allImpls sys on, i.trait = some (.deref, []) →
    i = ⟨[.S], some (.deref, []), quantityPat sys (.var .S) .none, [str!"Target", str!"deref"]⟩ := by
  unfold allImpls
  simp only [List.forall_mem_append]
  refine ⟨⟨⟨⟨⟨⟨⟨⟨⟨⟨⟨⟨⟨⟨?_, ?_⟩, ?_⟩, ?_⟩, ?_⟩, ?_⟩, ?_⟩, ?_⟩, ?_⟩, ?_⟩, ?_⟩, ?_⟩, ?_⟩, ?_⟩, ?_⟩
  · simp [dimensionImpls]
  · simp [quantityImpls]
  · simp [unitImpls]
  · refine forall_mem_flat' fun st _ => ?_
    simp [unitStorageImpls]
  · intro i hi ht
    obtain ⟨o, ho, hg⟩ := List.mem_filterMap.1 hi
    obtain ⟨impl, -, rfl⟩ := Option.map_eq_some_iff.1 hg
    cases ht
  · simp [sumNegFromImpls]
  · simp [debugImpl]
  · refine forall_mem_if' _ fun _ => forall_mem_flat' fun f _ => ?_
    intro x hx ht; obtain ⟨st, hst, rfl⟩ := List.mem_map.1 hx; cases ht
  · refine forall_mem_flat' fun st _ => ?_
    simp [floatImpls]
  · refine forall_mem_flat' fun st _ => ?_
    simp [vectorImpls]
  · refine forall_mem_flat' fun st _ => ?_
    simp [genericImpls]
  · refine forall_mem_if' _ fun _ => ?_
    rw [List.forall_mem_cons]
    refine ⟨by simp [visitorDefault], forall_mem_flat' fun s _ => ?_⟩
    simp [serdeImpls]
  · refine forall_mem_if' _ fun _ => forall_mem_flat' fun s _ => ?_
    simp [hdf5Impls]
  · refine forall_mem_if' _ fun _ => forall_mem_flat' fun s _ => ?_
    simp [mpiImpls]
  · refine forall_mem_if' _ fun _ => ?_
    simp only [List.forall_mem_append]
    refine ⟨by simp [uniformDerives], forall_mem_flat' fun s _ => ?_⟩
    simp [randImpls]

theorem DerefStep.quantity {w : Foreigners E} (hw : w.Fair) {sys n : Nat} {on : Feature → Bool} {s u : RTy E} {d : DimVal E} :
    DerefStep w (allImpls sys on) n (RTy.quantity sys s d) u ↔ d = DimVal.none n ∧ u = s := by
  constructor
  · intro h
    generalize ht : RTy.quantity sys s d = t at h
    cases h with
    | ref m t => cases ht
    | impl i σ hi htr =>
      rw [deref_only sys on i hi htr] at ht
      obtain ⟨h1, h2⟩ := inst_quantity ht.symm
      exact ⟨by cases h2; rfl, h1⟩
    | foreign _ _ h => rw [← ht] at h; exact absurd (hw.2 _ _ h) quantity_not_foreign
  · rintro ⟨rfl, rfl⟩
    exact DerefStep.impl ⟨[.S], some (.deref, []), quantityPat sys (.var .S) .none, [str!"Target", str!"deref"]⟩ (fun _ => u)
      (by unfold allImpls; simp [quantityImpls]) rfl

theorem inherent_shape (sys : Nat) (on : Feature → Bool) : ∀ i ∈ allImpls sys on, i.trait = none →
    (∃ f x, i.self = .app f x) ∨ ∃ h, i.self = .head h := by
  unfold allImpls
  simp only [List.forall_mem_append]
  refine ⟨⟨⟨⟨⟨⟨⟨⟨⟨⟨⟨⟨⟨⟨?_, ?_⟩, ?_⟩, ?_⟩, ?_⟩, ?_⟩, ?_⟩, ?_⟩, ?_⟩, ?_⟩, ?_⟩, ?_⟩, ?_⟩, ?_⟩, ?_⟩
  · simp [dimensionImpls]
  · simp [quantityImpls, quantityPat]
  · simp [unitImpls, unitPat, runtimeUnitPat]
  · refine forall_mem_flat' fun st _ => ?_
    simp [unitStorageImpls]
  · intro i hi ht
    obtain ⟨o, ho, hg⟩ := List.mem_filterMap.1 hi
    obtain ⟨impl, -, rfl⟩ := Option.map_eq_some_iff.1 hg
    cases ht
  · simp [sumNegFromImpls]
  · simp [debugImpl]
  · refine forall_mem_if' _ fun _ => forall_mem_flat' fun f _ => ?_
    intro x hx ht; obtain ⟨st, hst, rfl⟩ := List.mem_map.1 hx; exact .inl ⟨_, _, rfl⟩
  · refine forall_mem_flat' fun st _ => ?_
    simp [floatImpls, quantityPat]
  · refine forall_mem_flat' fun st _ => ?_
    simp [vectorImpls, quantityPat]
  · refine forall_mem_flat' fun st _ => ?_
    simp [genericImpls, quantityPat]
  · refine forall_mem_if' _ fun _ => ?_
    rw [List.forall_mem_cons]
    refine ⟨by simp [visitorDefault], forall_mem_flat' fun s _ => ?_⟩
    simp [serdeImpls]
  · refine forall_mem_if' _ fun _ => forall_mem_flat' fun s _ => ?_
    simp [hdf5Impls]
  · refine forall_mem_if' _ fun _ => forall_mem_flat' fun s _ => ?_
    simp [mpiImpls]
  · refine forall_mem_if' _ fun _ => ?_
    simp only [List.forall_mem_append]
    refine ⟨by simp [uniformDerives], forall_mem_flat' fun s _ => ?_⟩
    simp [randImpls]

/-- References have no methods of their own among the generated ones. -/
theorem has_ref {w : Foreigners E} (hw : w.Fair) {sys n : Nat} {on : Feature → Bool} {b : Bool} {t : RTy E} {m : Str} (ht : ¬ t.Foreign) :
    ¬ HasMethod w (allImpls sys on) n (.ref b t) m := by
  rintro (⟨i, hi, htr, -, σ, hσ⟩ | h)
  · rcases inherent_shape sys on i hi htr with ⟨f, x, e⟩ | ⟨h, e⟩ <;> rw [e] at hσ <;> cases hσ
  · exact ht (hw.1 (.ref b t) m h)

theorem calls_ref {w : Foreigners E} (hw : w.Fair) {sys n : Nat} {on : Feature → Bool} {b : Bool} {t r : RTy E} {m : Str} (ht : ¬ t.Foreign) :
    Calls w (allImpls sys on) n m (.ref b t) r ↔ Calls w (allImpls sys on) n m t r := by
  constructor
  · intro h
    generalize hx : RTy.ref b t = x at h
    cases h with
    | here _ h => rw [← hx] at h; exact absurd h (has_ref hw ht)
    | step _ u _ _ hs hc =>
      cases hs with
      | ref _ _ => cases hx; exact hc
      | impl i σ hi htr => rw [deref_only sys on i hi htr] at hx; cases hx
      | foreign _ _ h => rw [← hx] at h; exact absurd (hw.2 _ _ h) ht
  · intro h
    exact .step _ _ _ (has_ref hw ht) (.ref b t) h

theorem refs_not_foreign {t : RTy E} (ht : ¬ t.Foreign) (bs : List Bool) : ¬ (t.refs bs).Foreign := by
  induction bs with
  | nil => exact ht
  | cons b bs ih => exact ih
theorem calls_refs {w : Foreigners E} (hw : w.Fair) {sys n : Nat} {on : Feature → Bool} {t r : RTy E} {m : Str} (ht : ¬ t.Foreign) (bs : List Bool) :
    Calls w (allImpls sys on) n m (t.refs bs) r ↔ Calls w (allImpls sys on) n m t r := by
  induction bs with
  | nil => exact Iff.rfl
  | cons b bs ih => exact (calls_ref hw (refs_not_foreign ht bs)).trans ih

/-! ### The theorems -/

/-- **C68, quantities with a dimension.** Whatever features are on, whatever is stored, and whatever methods it has, a method call on a quantity that has a
dimension, or on a reference to one, is a call of a method of the quantity type, from a fixed list; in particular never of a method of the number inside, and
never of a mathematical function such as `sin` or `ln`. -/
theorem C68_dimensioned {w : Foreigners E} (hw : w.Fair) (sys n : Nat) (on : Feature → Bool) (s r : RTy E) (d : DimVal E) (hd : d ≠ DimVal.none n)
    (bs : List Bool) (m : Str) :
    Calls w (allImpls sys on) n m ((RTy.quantity sys s d).refs bs) r ↔ r = RTy.quantity sys s d ∧ QuantityMethod on s m := by
  rw [calls_refs hw quantity_not_foreign]
  constructor
  · intro h
    cases h with
    | here _ h =>
      rcases (has_iff hw sys n on s d m).1 h with h | ⟨h, -⟩
      · exact ⟨rfl, h⟩
      · exact absurd h hd
    | step _ u _ _ hs _ => exact absurd ((DerefStep.quantity hw).1 hs).1 hd
  · rintro ⟨rfl, h⟩
    exact .here _ ((has_iff hw sys n on s d m).2 (.inl h))

/-- **C68, dimensionless quantities.** A method call on a dimensionless quantity, or on a reference to one, is a call of the quantity's own method if it has
one of that name, from a fixed list, and otherwise means the same call on the number inside. -/
theorem C68_dimensionless {w : Foreigners E} (hw : w.Fair) (sys n : Nat) (on : Feature → Bool) (s r : RTy E) (bs : List Bool) (m : Str) :
    Calls w (allImpls sys on) n m ((RTy.quantity sys s (DimVal.none n)).refs bs) r ↔
      (DimensionlessMethod on s m ∧ r = RTy.quantity sys s (DimVal.none n)) ∨
      (¬ DimensionlessMethod on s m ∧ Calls w (allImpls sys on) n m s r) := by
  rw [calls_refs hw quantity_not_foreign]
  have hiff : HasMethod w (allImpls sys on) n (RTy.quantity sys s (DimVal.none n)) m ↔ DimensionlessMethod on s m := by
    rw [has_iff hw]
    constructor
    · rintro (h | ⟨-, h⟩)
      · exact .inl h
      · exact h
    · intro h; exact .inr ⟨rfl, h⟩
  constructor
  · intro h
    cases h with
    | here _ h => exact .inl ⟨hiff.1 h, rfl⟩
    | step _ u _ hn hs hc =>
      obtain ⟨-, rfl⟩ := (DerefStep.quantity hw).1 hs
      exact .inr ⟨fun h => hn (hiff.2 h), hc⟩
  · rintro (⟨h, rfl⟩ | ⟨hn, hc⟩)
    · exact .here _ (hiff.2 h)
    · exact .step _ _ _ (fun h => hn (hiff.1 h)) ((DerefStep.quantity hw).2 ⟨rfl, rfl⟩) hc

theorem hasMath_mono {on on' : Feature → Bool} (h : ∀ f, on f = true → on' f = true) (hm : hasMath on = true) : hasMath on' = true := by
  unfold hasMath at hm ⊢
  simp only [Bool.or_eq_true] at hm ⊢
  exact hm.imp (h _) (h _)

theorem QuantityMethod.mono {on on' : Feature → Bool} (h : ∀ f, on f = true → on' f = true) {s : RTy E} {m : Str} (hm : QuantityMethod on s m) :
    QuantityMethod on' s m := by
  rcases hm with hm | ⟨st, rfl, hst, hm⟩
  · exact .inl hm
  · refine .inr ⟨st, rfl, h _ hst, ?_⟩
    rcases hm with hm | ⟨hf, hm | ⟨hm, hmath⟩⟩ | hm
    · exact .inl hm
    · exact .inr (.inl ⟨hf, .inl hm⟩)
    · exact .inr (.inl ⟨hf, .inr ⟨hm, hasMath_mono h hmath⟩⟩)
    · exact .inr (.inr hm)

/-- **C68, features.** On a quantity with a dimension, switching on more features changes the meaning of no method call that is accepted. -/
theorem C68_additive {w : Foreigners E} (hw : w.Fair) (sys n : Nat) {on on' : Feature → Bool} (h : ∀ f, on f = true → on' f = true)
    (s r : RTy E) (d : DimVal E) (hd : d ≠ DimVal.none n) (bs : List Bool) (m : Str)
    (hc : Calls w (allImpls sys on) n m ((RTy.quantity sys s d).refs bs) r) :
    Calls w (allImpls sys on') n m ((RTy.quantity sys s d).refs bs) r := by
  rw [C68_dimensioned hw sys n _ s r d hd bs m] at hc ⊢
  exact ⟨hc.1, hc.2.mono h⟩

/-- **C68, features, dimensionless quantities** (finding F30). There the meaning of an accepted call can change: let the storage type have a method of its
own under one of the names that the macro generates for it when the features `new` are on as well, but not when only `on` are. Then `q.m()` is the number's
method, giving a number, in the smaller build, and the quantity's method, giving a quantity, in the greater one. -/
theorem C68_not_additive {w : Foreigners E} (hw : w.Fair) (sys n : Nat) {on on' : Feature → Bool} (st : Storage) (m : Str)
    (hown : w.method (.head (.storage st)) m)
    (hoff : ¬ DimensionlessMethod on (.head (.storage st) : RTy E) m) (hon : DimensionlessMethod on' (.head (.storage st) : RTy E) m) (r : RTy E) :
    (Calls w (allImpls sys on) n m (RTy.quantity sys (.head (.storage st)) (DimVal.none n)) r ↔ r = .head (.storage st)) ∧
    (Calls w (allImpls sys on') n m (RTy.quantity sys (.head (.storage st)) (DimVal.none n)) r ↔
      r = RTy.quantity sys (.head (.storage st)) (DimVal.none n)) := by
  have hcall : ∀ r, Calls w (allImpls sys on) n m (.head (.storage st)) r ↔ r = .head (.storage st) := by
    intro r
    have hhas : HasMethod w (allImpls sys on) n (.head (.storage st)) m := .inr hown
    constructor
    · intro h
      cases h with
      | here _ _ => rfl
      | step _ _ _ hn _ _ => exact absurd hhas hn
    · rintro rfl; exact .here _ hhas
  constructor
  · have := C68_dimensionless hw sys n on (.head (.storage st)) r [] m
    simp only [RTy.refs] at this
    rw [this, hcall]
    tauto
  · have := C68_dimensionless hw sys n on' (.head (.storage st)) r [] m
    simp only [RTy.refs] at this
    rw [this]
    tauto

/-- The case at hand: `floor` on a dimensionless `f64` without, and with, the feature `std`. -/
example : ¬ DimensionlessMethod (enabled [.f64]) (.head (.storage .f64) : RTy Int) (str!"floor") ∧
    DimensionlessMethod (enabled [.f64, .std]) (.head (.storage .f64) : RTy Int) (str!"floor") := by
  constructor
  · rintro (h | h | h | ⟨-, h, -⟩)
    · rcases h with h | ⟨st, hs, -, h⟩
      · exact absurd h (by decide +kernel)
      · cases hs; exact absurd h (by decide +kernel)
    · exact absurd h (by decide +kernel)
    · exact absurd h (by decide +kernel)
    · exact absurd h (by decide +kernel)
  · exact .inr (.inr (.inr ⟨by decide +kernel, by decide +kernel, .f64, rfl, by decide +kernel, by decide +kernel⟩))

/-! ### The same functions as elsewhere in the model -/

/-- The table, as a check on the storage type. -/
def tableOk (on : Feature → Bool) (st : Storage) (dimless : Bool) (m : Str) : Bool :=
  decide (m ∈ commonMethods) ||
  (on st.feature && (decide (m = str!"abs") || (st.isFloat && (decide (m ∈ floatMethods) || (decide (m ∈ rootMethods) && hasMath on))) ||
    (!st.isFloat && (decide (m ∈ vectorMethods) || (decide (m ∈ vector3Methods) && decide (st.numDims = 3)))))) ||
  (dimless && (decide (m = str!"value") || decide (m = str!"value_ref") || (decide (m ∈ functionMethods) && hasMath on && on st.feature && st.isFloat)))

theorem table_iff [DecidableEq E] {on : Feature → Bool} {n : Nat} {st : Storage} {d : DimVal E} {m : Str} :
    Table on n (.head (.storage st)) d m ↔ tableOk on st (decide (d = DimVal.none n)) m = true := by
  unfold Table DimensionlessMethod QuantityMethod tableOk
  simp only [RTy.head.injEq, TyHead.storage.injEq, exists_eq_left', Bool.or_eq_true, Bool.and_eq_true, decide_eq_true_eq, Bool.not_eq_true']
  tauto

/-- The table, in terms of what it depends on. -/
def tableB (feat math dimless : Bool) (st : Storage) (m : Str) : Bool :=
  decide (m ∈ commonMethods) ||
  (feat && (decide (m = str!"abs") || (st.isFloat && (decide (m ∈ floatMethods) || (decide (m ∈ rootMethods) && math))) ||
    (!st.isFloat && (decide (m ∈ vectorMethods) || (decide (m ∈ vector3Methods) && decide (st.numDims = 3)))))) ||
  (dimless && (decide (m = str!"value") || decide (m = str!"value_ref") || (decide (m ∈ functionMethods) && math && feat && st.isFloat)))

/-- What the arguments of a function show about the receiver. -/
def Fn.shows (f : Fn E) (s : Storage) (dimless : Bool) : Bool :=
  match f with
  | .value | .valueRef => dimless
  | .dimensionless _ => s.isFloat && dimless
  | .squared | .cubed | .powi _ | .sqrt | .cbrt | .clamp | .isPositive | .isPositiveOrZero | .isNegative | .isNegativeOrZero | .isNan => s.isFloat
  | .axis a | .setAxis a => axisOk a s
  | .length | .distance | .distanceSquared | .normalize | .dot => s.isVector
  | _ => true

theorem sig_shows [DecidableEq E] {n : Nat} {f : Fn E} {s : Storage} {d : DimVal E} {rest : List (Ty E)} {t : Ty E}
    (h : f.sig n (.quantity s d :: rest) = some t) : f.shows s (decide (d = DimVal.none n)) = true := by
  cases f <;> simp only [Fn.sig] at h <;> (try split at h) <;> (try (simp at h; done)) <;> simp_all [Fn.shows]

/-- What `Fn.generated` says about a method, in terms of the same. -/
def Fn.generatedB (f : Fn E) (feat math : Bool) (s : Storage) : Bool :=
  match f with
  | .abs | .min | .max => feat
  | .dimensionless _ | .sqrt | .cbrt => math && (s.isFloat && feat)
  | .squared | .cubed | .powi _ | .clamp | .isPositive | .isPositiveOrZero | .isNegative | .isNegativeOrZero | .isNan => s.isFloat && feat
  | .axis _ | .setAxis _ | .length | .distance | .distanceSquared | .normalize | .dot => s.isVector && feat
  | _ => true

theorem generated_eq [DecidableEq E] {on : Feature → Bool} {f : Fn E} {m : Str} (hf : f.methodName = some m) {s : Storage} {d : DimVal E}
    {rest : List (Ty E)} : f.generated on (.quantity s d :: rest) = f.generatedB (on s.feature) (hasMath on) s := by
  have h1 : (storageTypes on).contains s = on s.feature := by
    rw [Bool.eq_iff_iff, List.contains_iff_mem, mem_storageTypes]
  have h2 : (floatTypes on).contains s = (s.isFloat && on s.feature) := by
    rw [Bool.eq_iff_iff, List.contains_iff_mem, mem_floatTypes, Bool.and_eq_true]
  have h3 : (vectorTypes on).contains s = (s.isVector && on s.feature) := by
    rw [Bool.eq_iff_iff, List.contains_iff_mem, mem_vectorTypes, Bool.and_eq_true]
  have h4 : (s.isFloat && on s.feature || s.isVector && on s.feature) = on s.feature := by
    unfold Storage.isVector
    cases s.isFloat <;> cases on s.feature <;> rfl
  cases f <;> first | (cases hf; done) | simp only [Fn.generated, Fn.generatedB, h1, h2, h3, h4]

theorem tables_agree {f : Fn E} {m : Str} (hf : f.methodName = some m) : ∀ (feat math dimless : Bool) (s : Storage), f.shows s dimless = true →
    f.generatedB feat math s = tableB feat math dimless s m := by
  intro feat math dimless s
  cases f
  case dimensionless g => cases hf; dsimp only [Fn.shows, Fn.generatedB]; cases s <;> cases g <;> revert feat math dimless <;> decide +kernel
  case axis a => cases a <;> cases hf <;> dsimp only [Fn.shows, Fn.generatedB] <;> cases s <;> revert feat math dimless <;> decide +kernel
  case setAxis a => cases a <;> cases hf <;> dsimp only [Fn.shows, Fn.generatedB] <;> cases s <;> revert feat math dimless <;> decide +kernel
  all_goals first
    | (cases hf; done)
    | (cases hf; dsimp only [Fn.shows, Fn.generatedB]; cases s <;> revert feat math dimless <;> decide +kernel)

/-- **C68, one table.** The functions that the properties on typing and features (C21, C24, C55) speak of are the methods of the generated `impl` blocks: a
function that is called as a method has a type exactly if its arguments fit and the type of the receiver has a method of that name. -/
theorem C68_functions [DecidableEq E] {w : Foreigners E} (hw : w.Fair) (sys n : Nat) (on : Feature → Bool) (f : Fn E) (m : Str)
    (hf : f.methodName = some m) (s : Storage) (d : DimVal E) (rest : List (Ty E)) (t : Ty E) :
    f.sigIn on n (.quantity s d :: rest) = some t ↔
      f.sig n (.quantity s d :: rest) = some t ∧ HasMethod w (allImpls sys on) n (RTy.quantity sys (.head (.storage s)) d) m := by
  rw [has_iff hw, table_iff]
  unfold Fn.sigIn
  by_cases hsig : f.sig n (.quantity s d :: rest) = some t
  swap
  · constructor
    · intro h; split at h
      · exact absurd h hsig
      · cases h
    · intro h; exact absurd h.1 hsig
  have h : f.generated on (.quantity s d :: rest) = tableOk on s (decide (d = DimVal.none n)) m := by
    rw [generated_eq hf]
    exact tables_agree hf _ _ _ _ (sig_shows hsig)
  rw [h, hsig]
  cases tableOk on s (decide (d = DimVal.none n)) m <;> simp

/-! ### Examples -/

/-- A world in which floats have the methods `floor` and `to_bits` and nothing else is known. -/
def someWorld : Foreigners E where
  method t m := (t = .head (.storage .f32) ∨ t = .head (.storage .f64)) ∧ (m = str!"floor" ∨ m = str!"to_bits")
  deref _ _ := False
theorem someWorld_fair : (someWorld (E := E)).Fair := by
  constructor
  · rintro t m ⟨rfl | rfl, -⟩ <;> trivial
  · intro t u h; cases h

/-- The number inside a length in a system of three base dimensions cannot be rounded, nor its bits be read; a dimensionless one can. -/
example : (∀ r, ¬ Calls (E := Int) someWorld (allImpls 0 (enabled [.default])) 3 (str!"floor") (RTy.quantity 0 (.head (.storage .f64)) [1, 0, 0]) r) ∧
    (∀ r, ¬ Calls (E := Int) someWorld (allImpls 0 (enabled [.default])) 3 (str!"to_bits") (RTy.quantity 0 (.head (.storage .f64)) [1, 0, 0]) r) ∧
    Calls (E := Int) someWorld (allImpls 0 (enabled [.default])) 3 (str!"floor") (RTy.quantity 0 (.head (.storage .f64)) (DimVal.none 3))
      (RTy.quantity 0 (.head (.storage .f64)) (DimVal.none 3)) ∧
    Calls (E := Int) someWorld (allImpls 0 (enabled [.default])) 3 (str!"to_bits") (RTy.quantity 0 (.head (.storage .f64)) (DimVal.none 3))
      (.head (.storage .f64)) := by
  have hn : ∀ m, m = str!"floor" ∨ m = str!"to_bits" → ¬ QuantityMethod (enabled [.default]) (.head (.storage .f64) : RTy Int) m := by
    intro m hm h
    rcases h with h | ⟨st, hs, -, h⟩
    · rcases hm with rfl | rfl <;> exact absurd h (by decide +kernel)
    · cases hs
      rcases hm with rfl | rfl <;> exact absurd h (by decide +kernel)
  refine ⟨?_, ?_, ?_, ?_⟩
  · intro r h
    exact hn _ (.inl rfl) ((C68_dimensioned someWorld_fair 0 3 _ _ r [1, 0, 0] (by decide) [] _).1 h).2
  · intro r h
    exact hn _ (.inr rfl) ((C68_dimensioned someWorld_fair 0 3 _ _ r [1, 0, 0] (by decide) [] _).1 h).2
  · refine (C68_dimensionless someWorld_fair 0 3 _ _ _ [] _).2 (.inl ⟨?_, rfl⟩)
    exact .inr (.inr (.inr ⟨by decide +kernel, by decide +kernel, .f64, rfl, by decide +kernel, by decide +kernel⟩))
  · refine (C68_dimensionless someWorld_fair 0 3 _ _ _ [] _).2 (.inr ⟨?_, .here _ (.inr ⟨.inr rfl, .inr rfl⟩)⟩)
    rintro (h | h | h | ⟨h, -⟩)
    · exact hn _ (.inr rfl) h
    all_goals exact absurd h (by decide +kernel)
end
end Diman
