import Verif.Props.C32
import Verif.Spec.Ideal
/-!
# C32 — operators, component by component
`C32_operators` says that an operator of quantities is the operator of the storage types; here the latter is spelled out per component.
-/
set_option linter.unusedSectionVars false
namespace Diman
variable {E : Type} [FieldOps E] [DecidableEq E] {K M : Type} [Prims K M]

/-- Component `i` of an operand: a plain float counts as a vector whose components are all equal. -/
def component (r : Raw K) (i : Nat) : Option K := if r.length = 1 then r[0]? else r[i]?

/-- `c` is the componentwise `f` of `a` and `b`. -/
def Componentwise (f : K → K → K) (a b c : Raw K) : Prop :=
  c.length = max a.length b.length ∧
  ∀ i < c.length, ∃ x y, component a i = some x ∧ component b i = some y ∧ c[i]? = some (f x y)

/-- The stored value of a result. -/
def Val.stored : Val K M → Option (Raw K)
  | .quantity r | .bare r => some r
  | _ => none

/-- What the operator `t` has to return for the operands `a` and `b` with components of type `ty`. -/
def OperatorMeaning (M : Type) [Prims K M] (t : Trait) (ty : FloatTy) (a b : Raw K) (v : Val K M) : Prop :=
  match t with
  | .add | .addAssign => ∃ c, v.stored = some c ∧ Componentwise (Prims.add M ty) a b c
  | .sub | .subAssign => ∃ c, v.stored = some c ∧ Componentwise (Prims.sub M ty) a b c
  | .mul | .mulAssign => ∃ c, v.stored = some c ∧ Componentwise (Prims.mul M ty) a b c
  | .div | .divAssign => ∃ c, v.stored = some c ∧ Componentwise (Prims.div M ty) a b c
  | .partialEq => a.length = b.length ∧ ∃ r, v = .bool r ∧
      (r = true ↔ ∀ i (h : i < a.length) (h' : i < b.length), Prims.eq M ty a[i] b[i] = true)
  | .partialOrd => ∃ x y, a = [x] ∧ b = [y] ∧
      ((Prims.eq M ty x y = true ∧ v = .ordering (some .eq)) ∨
       (Prims.eq M ty x y = false ∧ Prims.lt M ty x y = true ∧ v = .ordering (some .lt)) ∨
       (Prims.eq M ty x y = false ∧ Prims.lt M ty x y = false ∧ Prims.lt M ty y x = true ∧ v = .ordering (some .gt)) ∨
       (Prims.eq M ty x y = false ∧ Prims.lt M ty x y = false ∧ Prims.lt M ty y x = false ∧ v = .ordering none))

theorem storageOut_cases {t : Trait} {sl sr s : Storage} (h : storageOut t sl sr = some s) :
    (sl = sr) ∨ (sl.isVector = true ∧ sr = sl.base.storage) ∨ (sr.isVector = true ∧ sl = sr.base.storage) := by
  revert h
  cases t <;> cases sl <;> cases sr <;> simp [storageOut, Storage.isFloat, Storage.isVector, Storage.base, FloatTy.storage]

theorem Raw.zip_componentwise {f : K → K → K} {t : Trait} {sl sr s : Storage} (h : storageOut t sl sr = some s) {a b c : Raw K}
    (ha : a.length = sl.numDims) (hb : b.length = sr.numDims) (hc : Raw.zip f sl sr a b = some c) : Componentwise f a b c := by
  have hcase := storageOut_cases h
  have one : ∀ s : Storage, s.isFloat = true ↔ s.numDims = 1 := by intro s; cases s <;> simp [Storage.isFloat, Storage.numDims]
  unfold Raw.zip at hc
  split at hc
  · rename_i hl
    rw [(one sl).1 hl] at ha
    obtain ⟨x, rfl⟩ := List.length_eq_one_iff.1 ha
    simp only [Option.some.injEq] at hc
    subst hc
    have hpos : 1 ≤ b.length := by rw [hb]; cases sr <;> simp [Storage.numDims]
    refine ⟨by simp [hpos], fun i hi => ?_⟩
    simp only [List.length_map] at hi
    by_cases h1 : b.length = 1
    · obtain ⟨y, rfl⟩ := List.length_eq_one_iff.1 h1
      simp at hi
      subst hi
      exact ⟨x, y, by simp [component], by simp [component], by simp⟩
    · exact ⟨x, b[i], by simp [component], by simp [component, h1, hi], by simp [hi]⟩
  · rename_i hl
    split at hc
    · rename_i hr
      rw [(one sr).1 hr] at hb
      obtain ⟨y, rfl⟩ := List.length_eq_one_iff.1 hb
      simp only [Option.some.injEq] at hc
      subst hc
      have hne : a.length ≠ 1 := by rw [ha]; exact fun e => hl ((one sl).2 e)
      have hpos : 1 ≤ a.length := by rw [ha]; cases sl <;> simp [Storage.numDims]
      refine ⟨by simp [hpos], fun i hi => ?_⟩
      simp only [List.length_map] at hi
      exact ⟨a[i], y, by simp [component, hne, hi], by simp [component], by simp [hi]⟩
    · rename_i hr
      simp only [Option.some.injEq] at hc
      subst hc
      have hs : sl = sr := by
        rcases hcase with e | ⟨_, e⟩ | ⟨_, e⟩
        · exact e
        · exact absurd (by rw [e]; cases sl <;> rfl) hr
        · exact absurd (by rw [e]; cases sr <;> rfl) hl
      subst hs
      have hne : sl.numDims ≠ 1 := fun e => hl ((one sl).2 e)
      refine ⟨by simp [ha, hb], fun i hi => ?_⟩
      simp only [List.length_zipWith, ha, hb, min_self] at hi
      exact ⟨a[i], b[i], by simp [component, ha, hne, hi], by simp [component, hb, hne, hi], by simp [ha, hb, hi]⟩

/-- **C32.** Every well-typed operator application, component by component: arithmetic acts on the components (a float on every component
of a vector), two values are equal if and only if all their components are, and an ordering is that of the two floats. -/
theorem C32_components {ss : List Storage} {o : OperatorTrait} (ho : o ∈ iterNumericTraits ss) {i : Inst E} {l r : OpTy E}
    {out : OpOut E} (h : o.Typed i l r out) {a b : Val K M} (ha : a.HasTy l.ty) (hb : b.HasTy r.ty) :
    ∃ x y v, a.stored = some x ∧ b.stored = some y ∧ o.run (i.st o.storageTypes.1) (i.st o.storageTypes.2) a b = some v ∧
      OperatorMeaning M o.name (i.st o.storageTypes.1).base x y v := by
  obtain ⟨x, y, rfl, rfl, hx, hy⟩ := hasTy_wrap h ha hb
  have hw : ∀ (p : Operand) (r : Raw K), (p.wrap r : Val K M).stored = some r := by
    intro p r
    unfold Operand.wrap
    split <;> rfl
  refine ⟨x, y, ?_⟩
  obtain ⟨sl, sr, s, e1, e2, hst, -⟩ := typed_inv ho h
  rw [e1] at hx ⊢; rw [e2] at hy ⊢
  obtain ⟨z, hz, -⟩ := rawOp_some (M := M) hst hx hy
  refine ⟨o.result z, hw _ _, hw _ _, by rw [table_run ho, hz]; rfl, ?_⟩
  have hres : ∀ c : Raw K, (o.result (.raw c) : Val K M).stored = some c := by
    intro c
    simp only [OperatorTrait.result]
    split
    · rfl
    · exact hw _ _
  generalize hn : o.name = t at hst hz
  unfold rawOp at hz
  simp only [hst, Option.isNone_some, Bool.false_eq_true, if_false] at hz
  unfold OperatorMeaning
  cases t
  case partialEq =>
    simp only [Option.some.injEq] at hz
    subst hz
    have hs : sl = sr := by
      simp only [storageOut] at hst
      split at hst
      · assumption
      · cases hst
    subst hs
    have hlen : x.length = y.length := hx.trans hy.symm
    refine ⟨hlen, _, rfl, ?_⟩
    simp only [hlen, decide_true, Bool.true_and, List.all_eq_true, id]
    constructor
    · intro hall j hj hj'
      refine hall _ ?_
      rw [List.mem_iff_getElem]
      exact ⟨j, by rw [List.length_zipWith]; omega, by simp⟩
    · intro hall e he
      obtain ⟨j, hj, rfl⟩ := List.mem_iff_getElem.1 he
      simp only [List.length_zipWith] at hj
      simpa using hall j (by omega) (by omega)
  case partialOrd =>
    simp only at hz
    split at hz
    · rename_i x y
      simp only [Option.some.injEq] at hz
      subst hz
      refine ⟨x, y, rfl, rfl, ?_⟩
      simp only [OperatorTrait.result, partialCmp]
      cases h1 : Prims.eq M sl.base x y <;> cases h2 : Prims.lt M sl.base x y <;> cases h3 : Prims.lt M sl.base y x <;> simp
    · cases hz
  all_goals
    simp only [Option.map_eq_some_iff] at hz
    obtain ⟨c, hc, rfl⟩ := hz
    exact ⟨c, hres c, Raw.zip_componentwise hst hx hy hc⟩

/-- **C32.** Over the real numbers: two quantities are equal if and only if their stored values are the same, and they are ordered as these. -/
theorem C32_compare_exact [IdealFns] {ss : List Storage} {o : OperatorTrait} (ho : o ∈ iterNumericTraits ss) {i : Inst E} {l r : OpTy E}
    {out : OpOut E} (h : o.Typed i l r out) {a b : Val ℝ ℝ} (ha : a.HasTy l.ty) (hb : b.HasTy r.ty) :
    ∃ x y, a.stored = some x ∧ b.stored = some y ∧
      (o.name = .partialEq → ∃ v, o.run (i.st o.storageTypes.1) (i.st o.storageTypes.2) a b = some (.bool v) ∧ (v = true ↔ x = y)) ∧
      (o.name = .partialOrd → ∃ p q v, x = [p] ∧ y = [q] ∧
        o.run (i.st o.storageTypes.1) (i.st o.storageTypes.2) a b = some (.ordering (some v)) ∧
        (v = .lt ↔ p < q) ∧ (v = .eq ↔ p = q) ∧ (v = .gt ↔ p > q)) := by
  obtain ⟨x, y, v, hx, hy, hv, hm⟩ := C32_components ho h ha hb
  refine ⟨x, y, hx, hy, fun hn => ?_, fun hn => ?_⟩
  · rw [hn] at hm
    obtain ⟨hl, w, rfl, hw⟩ := hm
    refine ⟨w, hv, hw.trans ⟨fun hall => List.ext_getElem hl fun j h1 h2 => ?_, ?_⟩⟩
    · simpa [Prims.eq] using hall j h1 h2
    · rintro rfl j _ _
      simp [Prims.eq]
  · rw [hn] at hm
    obtain ⟨p, q, rfl, rfl, hm⟩ := hm
    simp only [Prims.eq, Prims.lt, decide_eq_true_eq, decide_eq_false_iff_not] at hm
    rcases hm with ⟨e, rfl⟩ | ⟨e, e', rfl⟩ | ⟨e, e', e'', rfl⟩ | ⟨e, e', e'', rfl⟩
    · exact ⟨p, q, _, rfl, rfl, hv, by simp [e], by simp [e], by simp [e]⟩
    · exact ⟨p, q, _, rfl, rfl, hv, by simp [e'], by simp [e], by simp [le_of_lt e']⟩
    · exact ⟨p, q, _, rfl, rfl, hv, by simp [e'] , by simp [e], by simp [e'']⟩
    · exact absurd (le_antisymm (not_lt.1 e'') (not_lt.1 e')) e

-- Vectors of two components: 2 * (x, y) and (1, 2) == (1, 3).
example [IdealFns] : (⟨.mul, qG, qG⟩ : OperatorTrait) ∈ iterNumericTraits [.vec2, .f32] ∧
    (⟨.mul, qG, qG⟩ : OperatorTrait).run .f32 .vec2 (.quantity [2] : Val ℝ ℝ) (.quantity [3, 5]) = some (.quantity [6, 10]) := by
  refine ⟨by decide, ?_⟩
  refine (table_run (o := ⟨.mul, qG, qG⟩) (ss := [.vec2, .f32]) (by decide) _ _ _ _).trans ?_
  norm_num [rawOp, storageOut, Storage.isVector, Storage.base, FloatTy.storage, Raw.zip, Storage.isFloat, arith, Prims.mul, OperatorTrait.result, Trait.hasOutput]
  exact ⟨_, ⟨by simp, rfl⟩, rfl⟩

end Diman
