import Verif.Props.C79Compare
import Verif.Spec.Branching
/-!
# C79 — programs with conditionals take the same course whatever the base units
-/
set_option linter.style.haveILetI false
set_option linter.unusedSectionVars false
namespace Diman
open LawfulExponent

section
variable {E U K M : Type} [FieldOps E] [DecidableEq E] [Prims K M]

theorem hasTy_float {a : Val K M} {t : FloatTy} (h : a.HasTy (.bare t.storage : Ty E)) : ∃ x, a = .bare [x] := by
  cases a <;> simp only [Val.HasTy] at h
  rename_i r
  have hl : r.length = 1 := by rw [h]; cases t <;> rfl
  obtain ⟨x, rfl⟩ := List.length_eq_one_iff.1 hl
  exact ⟨x, rfl⟩

theorem numbers_wrap (p : Operand) (r : Raw K) : (p.wrap r : Val K M).numbers = r := by
  obtain ⟨k, sp, rf⟩ := p
  cases k <;> rfl

/-- A comparison of two single numbers is core's comparison of these numbers. -/
theorem comparator_run {ss : List Storage} {n : Nat} {cmp : Comparator} {t₀ : FloatTy} {lt rt : Ty E} (h : cmp.Accepts ss n lt rt) (at₀ : cmp.At t₀)
    {a b : Val K M} (ha : a.HasTy lt) (hb : b.HasTy rt) {x y : K} (hx : a.numbers = [x]) (hy : b.numbers = [y]) :
    cmp.run a b = some (partialCmp M t₀ x y) := by
  cases cmp with
  | core t =>
    obtain ⟨rfl, rfl⟩ := h
    cases at₀
    obtain ⟨x', rfl⟩ := hasTy_float ha
    obtain ⟨y', rfl⟩ := hasTy_float hb
    cases hx; cases hy; rfl
  | generated o sl sr =>
    obtain ⟨ho, i, l, r, -, hty, rfl, rfl, rfl, rfl⟩ := h
    obtain ⟨e1, e2⟩ := at₀
    obtain ⟨x', y', rfl, rfl, -, -⟩ := hasTy_wrap hty ha hb
    rw [numbers_wrap] at hx hy
    subst hx; subst hy
    have hn : o.name = .partialOrd := by
      obtain ⟨-, -, -, -, s, -, hm⟩ := hty
      generalize o.name = nm at hm
      cases nm <;> simp at hm ⊢
    simp only [Comparator.run, table_run ho, e1, e2, hn]
    simp [rawOp, storageOut, storage_isFloat, storage_base, OperatorTrait.result]
end

theorem hasTy_rel {E K M K' M' : Type} {R : K → K' → Prop} {S : M → M' → Prop} {v : Val K M} {w : Val K' M'} (h : Val.Rel R S v w) (t : Ty E) :
    v.HasTy t ↔ w.HasTy t := by
  cases v <;> cases w <;> cases t <;> simp_all [Val.Rel, Val.HasTy]
  all_goals (rw [h.length_eq])

section
variable [IdealFns] {E U : Type} [Exponent E] [LawfulExponent E] [FieldOps E] [LawfulFieldOps E] [DecidableEq E]

theorem comparator_scale {s : List ℝ} (hs : ∀ x ∈ s, 0 < x) {ss : List Storage} {n : Nat} {cmp : Comparator} {lt rt : Ty E} (h : cmp.Accepts ss n lt rt)
    (wl : lt.WF n) (wr : rt.WF n) {a b : Val ℝ ℝ} (ha : a.HasTy lt) (hb : b.HasTy rt) :
    cmp.run (a.rescale s lt) (b.rescale s rt) = cmp.run a b := by
  cases cmp with
  | core t =>
    obtain ⟨rfl, rfl⟩ := h
    obtain ⟨x', rfl⟩ := hasTy_float ha
    obtain ⟨y', rfl⟩ := hasTy_float hb
    simp [Val.rescale, Ty.scale, Val.smul]
  | generated o sl sr =>
    obtain ⟨ho, i, l, r, rfl, hty, rfl, rfl, rfl, rfl⟩ := h
    simp only [Comparator.run]
    rw [op_scale hs ho hty wl wr ha hb]
    cases o.run (i.st o.storageTypes.1) (i.st o.storageTypes.2) a b with
    | none => rfl
    | some v => cases v <;> simp [Val.rescale, Val.smul]

/-- The exact result of a program, rescaled, is the exact result of the program on the rescaled values. -/
theorem branching_scale {ss : List Storage} {n : Nat} {dimOf : U → DimVal E} (hdim : ∀ u, (dimOf u).length = n ∧ (dimOf u).Canonical)
    {fac : U → ℝ} {s : List ℝ} (hs : ∀ x ∈ s, 0 < x) {Γ : List (Ty E)} {p : Branching E U} {t : Ty E}
    (h : BranchingChecks ss n dimOf (FaithfulCall n) Γ p t) (hΓ : ∀ t ∈ Γ, t.WF n) (ρ : List (Val ℝ ℝ)) (hρ : ArgsHaveTy ρ Γ) :
    p.eval n (fun u => fac u * DimVal.scale s (dimOf u)) (rescaleAll s Γ ρ) = (p.eval n fac ρ).map (Val.rescale s t) := by
  induction h generalizing ρ with
  | result hc => simp only [Branching.eval]; exact ((calc_scale hdim hΓ hs hc).2 ρ hρ).2
  | ifCompare hl hr hcmp _ _ ihy ihn =>
    obtain ⟨wl, hl⟩ := calc_scale (fac := fac) hdim hΓ hs hl
    obtain ⟨wr, hr⟩ := calc_scale (fac := fac) hdim hΓ hs hr
    obtain ⟨tl, el⟩ := hl ρ hρ
    obtain ⟨tr, er⟩ := hr ρ hρ
    simp only [Branching.eval]
    rw [el, er, ihy hΓ ρ hρ, ihn hΓ ρ hρ]
    rename_i l r _ _ _ _ _ _ _ _ _
    cases ha : Calc.eval n fac ρ l with
    | none => rfl
    | some a =>
      cases hb : Calc.eval n fac ρ r with
      | none => rfl
      | some b =>
        simp only [Option.map_some, Option.bind_eq_bind, Option.bind_some]
        rw [comparator_scale hs hcmp wl wr (tl a ha) (tr b hb)]
        cases Comparator.run _ a b with
        | none => rfl
        | some o => simp only [Option.bind_some]; split <;> rfl
  | letIn ha _ ih =>
    obtain ⟨wa, ha⟩ := calc_scale (fac := fac) hdim hΓ hs ha
    obtain ⟨ta, ea⟩ := ha ρ hρ
    simp only [Branching.eval]
    rw [ea]
    rename_i a _ _ _ _ _
    cases hv : Calc.eval n fac ρ a with
    | none => rfl
    | some v =>
      simp only [Option.map_some, Option.bind_eq_bind, Option.bind_some]
      exact ih (by simpa using ⟨wa, hΓ⟩) (v :: ρ) (.cons (ta v hv) hρ)

theorem numbers_rel_single {K M K' M' : Type} {R : K → K' → Prop} {S : M → M' → Prop} {v : Val K M} {w : Val K' M'} (h : Val.Rel R S v w) {y : K'}
    (hw : w.numbers = [y]) : ∃ x, v.numbers = [x] ∧ R x y := by
  have := rel_numbers h
  rw [hw] at this
  cases hv : v.numbers with
  | nil => rw [hv] at this; cases this
  | cons x xs =>
    rw [hv] at this
    cases this with
    | cons h1 h2 => cases h2; exact ⟨x, rfl, h1⟩

/-- One run: the floats and the exact values take the same course, and the books hold of the result. -/
theorem branching_run {P : PlatformFns} {std : Bool} (hP : P.Ieee std) (t₀ : FloatTy) {ss : List Storage} {n : Nat} {dimOf : U → DimVal E}
    (hdim : ∀ u, (dimOf u).length = n ∧ (dimOf u).Canonical) (f : U → Magnitude) (book : U → Bounded)
    (factors : ∀ u, Bounded.HoldsFactor P.lib (f u) (book u)) {Γ : List (Ty E)} {p : Branching E U} {t : Ty E}
    (h : BranchingChecks ss n dimOf (FaithfulCall n) Γ p t) (hΓ : ∀ t ∈ Γ, t.WF n)
    (ρ : List (Val Fl Magnitude)) (β : List (Val Bounded Bounded)) (σ : List (Val ℝ ℝ)) (typed : ArgsHaveTy σ Γ)
    (inputs : List.Forall₂ (Val.Rel (Bounded.Holds t₀) (Bounded.HoldsFactor P.lib)) ρ β)
    (exact : List.Forall₂ (Val.Rel (fun r b => r = b.value) (fun r b => r = b.value)) σ β)
    (clear : p.Clear std t₀ n book β) {b : Val Bounded Bounded} (run : letI := bookPrims std t₀; p.eval n book β = some b) :
    ∃ w x, (letI := softPrims P; p.eval n f ρ = some w) ∧ p.eval n (fun u => (book u).value) σ = some x ∧
      Val.Rel (Bounded.Holds t₀) (Bounded.HoldsFactor P.lib) w b ∧ Val.Rel (fun r b => r = b.value) (fun r b => r = b.value) x b := by
  induction h generalizing ρ β σ with
  | result hc => exact C51_accurate hP t₀ n _ f book factors ρ β σ inputs exact run
  | @ifCompare Γ q cmp l r yes no lt rt t hl hr hcmp _ _ ihy ihn =>
    obtain ⟨at₀, a', b', A, B, ⟨ea, eb⟩, nA, nB, okA, okB, sep, hbr⟩ := clear
    have tl := fun v => (((calc_scale (fac := fun u => (book u).value) (s := []) hdim hΓ (by simp) hl).2 σ typed).1 v)
    have tr := fun v => (((calc_scale (fac := fun u => (book u).value) (s := []) hdim hΓ (by simp) hr).2 σ typed).1 v)
    obtain ⟨wa, xa, ewa, exa, rwa, rxa⟩ := C51_accurate hP t₀ n l f book factors ρ β σ inputs exact ea
    obtain ⟨wb, xb, ewb, exb, rwb, rxb⟩ := C51_accurate hP t₀ n r f book factors ρ β σ inputs exact eb
    have hxa := tl xa exa
    have hxb := tr xb exb
    have hba := (hasTy_rel rxa lt).1 hxa
    have hbb := (hasTy_rel rxb rt).1 hxb
    have hwa := (hasTy_rel rwa lt).2 hba
    have hwb := (hasTy_rel rwb rt).2 hbb
    obtain ⟨u, nu, hu⟩ := numbers_rel_single rwa nA
    obtain ⟨v, nv, hv⟩ := numbers_rel_single rwb nB
    obtain ⟨u', nu', hu'⟩ := numbers_rel_single rxa nA
    obtain ⟨v', nv', hv'⟩ := numbers_rel_single rxb nB
    obtain ⟨pu, vu, du⟩ := hu okA
    obtain ⟨pv, vv, dv⟩ := hv okB
    have c1 : (letI := softPrims P; cmp.run wa wb) = some (some (compare A.value B.value)) := by
      let := softPrims P
      rw [comparator_run hcmp at₀ hwa hwb nu nv, partialCmp_val P t₀ vu vv, compare_approx du dv sep]
    have real : ∀ c d : ℝ, partialCmp ℝ t₀ c d = some (compare c d) := by
      intro c d
      simp only [partialCmp, Prims.eq, Prims.lt]
      rcases lt_trichotomy c d with h | h | h
      · simp [h.ne, h, compare_lt_iff_lt.2 h]
      · simp [h]
      · simp [h.ne', h, h.not_gt, compare_gt_iff_gt.2 h]
    have c2 : cmp.run xa xb = some (some (compare A.value B.value)) := by
      rw [comparator_run hcmp at₀ hxa hxb nu' nv', real, hu', hv']
    have c3 : (letI := bookPrims std t₀; cmp.run a' b') = some (some (compare A.value B.value)) := by
      let := bookPrims std t₀
      rw [comparator_run hcmp at₀ hba hbb nA nB]
      exact congrArg some (real A.value B.value)
    simp only [Branching.eval, ea, eb, c3, Option.bind_eq_bind, Option.bind_some] at run
    simp only [Branching.eval, ewa, ewb, c1, exa, exb, c2, Option.bind_eq_bind, Option.bind_some]
    split at hbr
    · rename_i hq
      simp only [hq, if_true] at run ⊢
      exact ihy hΓ ρ β σ typed inputs exact hbr run
    · rename_i hq
      simp only [hq] at run ⊢
      exact ihn hΓ ρ β σ typed inputs exact hbr run
  | @letIn Γ a rest u t hc _ ih =>
    obtain ⟨v, ev, hrest⟩ := clear
    obtain ⟨w, x, ew, ex, rw', rx⟩ := C51_accurate hP t₀ n a f book factors ρ β σ inputs exact ev
    have hc' := calc_scale (fac := fun u => (book u).value) (s := []) hdim hΓ (by simp) hc
    simp only [Branching.eval, ev, Option.bind_eq_bind, Option.bind_some] at run
    simp only [Branching.eval, ew, ex, Option.bind_eq_bind, Option.bind_some]
    exact ih (by simpa using ⟨hc'.1, hΓ⟩) (w :: ρ) (v :: β) (x :: σ) (.cons ((hc'.2 σ typed).1 x ex) typed) (.cons rw' inputs) (.cons rx exact) hrest run

/-- **C79, programs with conditionals.** C79_rounding_only for programs whose course depends on comparisons of quantities and of numbers, nested to any depth: if no
comparison on the way is close, in the books of either run, then the program runs in both systems and, wherever it branches, its result in A, converted to the base
units of B, differs from that in B by at most the errors that the books of the two runs give. -/
theorem C79_branching {P : PlatformFns} {std : Bool} (hP : P.Ieee std) (t₀ : FloatTy) {ss : List Storage} {n : Nat} {dimOf : U → DimVal E}
    (dimensions : ∀ u, (dimOf u).length = n ∧ (dimOf u).Canonical) {Γ : List (Ty E)} (hΓ : ∀ t ∈ Γ, t.WF n) (p : Branching E U) (t : Ty E)
    (checks : BranchingChecks ss n dimOf (FaithfulCall n) Γ p t) (s : List ℝ) (hs : ∀ x ∈ s, 0 < x)
    (fA fB : U → Magnitude) (bookA bookB : U → Bounded) (factorsA : ∀ u, Bounded.HoldsFactor P.lib (fA u) (bookA u))
    (factorsB : ∀ u, Bounded.HoldsFactor P.lib (fB u) (bookB u)) (rebased : ∀ u, (bookB u).value = (bookA u).value * DimVal.scale s (dimOf u))
    (ρA ρB : List (Val Fl Magnitude)) (βA βB : List (Val Bounded Bounded)) (ρ : List (Val ℝ ℝ)) (typed : ArgsHaveTy ρ Γ)
    (inputsA : List.Forall₂ (Val.Rel (Bounded.Holds t₀) (Bounded.HoldsFactor P.lib)) ρA βA)
    (inputsB : List.Forall₂ (Val.Rel (Bounded.Holds t₀) (Bounded.HoldsFactor P.lib)) ρB βB)
    (exactA : List.Forall₂ (Val.Rel (fun r b => r = b.value) (fun r b => r = b.value)) ρ βA)
    (exactB : List.Forall₂ (Val.Rel (fun r b => r = b.value) (fun r b => r = b.value)) (rescaleAll s Γ ρ) βB)
    (clearA : p.Clear std t₀ n bookA βA) (clearB : p.Clear std t₀ n bookB βB)
    (bA bB : Val Bounded Bounded) (runA : letI := bookPrims std t₀; p.eval n bookA βA = some bA)
    (runB : letI := bookPrims std t₀; p.eval n bookB βB = some bB) :
    ∃ a b, (letI := softPrims P; p.eval n fA ρA = some a) ∧ (letI := softPrims P; p.eval n fB ρB = some b) ∧
      a.numbers.length = b.numbers.length ∧
      ∀ (j : Nat) (x y : Fl) (A B : Bounded), a.numbers[j]? = some x → b.numbers[j]? = some y → bA.numbers[j]? = some A → bB.numbers[j]? = some B →
        A.ok → B.ok → ∃ p q : ℚ, t₀.fmt.val x = some p ∧ t₀.fmt.val y = some q ∧ |(p : ℝ) * t.scale s - q| ≤ A.err * t.scale s + B.err := by
  obtain ⟨a, x, ha, hx, ra, rx⟩ := branching_run hP t₀ dimensions fA bookA factorsA checks hΓ ρA βA ρ typed inputsA exactA clearA runA
  have typed' : ArgsHaveTy (rescaleAll s Γ ρ) Γ := by
    clear * - typed
    induction typed with
    | nil => exact .nil
    | cons h _ ih => exact .cons (by rename_i v t _ _ _; cases v <;> cases t <;> simp_all [Val.rescale, Val.smul, Val.HasTy]) ih
  obtain ⟨b, y, hb, hy, rb, ry⟩ := branching_run hP t₀ dimensions fB bookB factorsB checks hΓ ρB βB _ typed' inputsB exactB clearB runB
  have hf : (fun u => (bookB u).value) = fun u => (bookA u).value * DimVal.scale s (dimOf u) := funext rebased
  have key := branching_scale (fac := fun u => (bookA u).value) dimensions hs checks hΓ ρ typed
  rw [← hf, hy, hx, Option.map_some, Option.some.injEq] at key
  exact ⟨a, b, ha, hb, runs_agree hs ra rx rb ry key⟩

/-- **C79, programs in two unit systems.** C79_branching for the units that the macro generates for two unit systems (texts A and B), with the error books of C47 for
their conversion factors. -/
theorem C79_branching_systems {P : PlatformFns} {std : Bool} (hP : P.Ieee std) (t₀ : FloatTy) (tokensA tokensB : List Tok) (defsA defsB : Defs Int Magnitude)
    (errorsA errorsB : List Diag)
    (hA : @unitSystem Int Magnitude _ Number.magnitude _ (magOpsInt P.lib) Prefix.factor tokensA = .done (defsA, errorsA))
    (hB : @unitSystem Int Magnitude _ Number.magnitude _ (magOpsInt P.lib) Prefix.factor tokensB = .done (defsB, errorsB)) :
    ∃ (exactA exactB : Defs Int ℚ) (booksA booksB : Defs Int Estimate),
      @unitSystem Int ℚ _ Number.exact _ rationalOps Prefix.literal tokensA = .done (exactA, errorsA) ∧
      @unitSystem Int ℚ _ Number.exact _ rationalOps Prefix.literal tokensB = .done (exactB, errorsB) ∧
      @unitSystem Int Estimate _ Number.estimate _ estimateOps Prefix.estimate tokensA = .done (booksA, errorsA) ∧
      @unitSystem Int Estimate _ Number.estimate _ estimateOps Prefix.estimate tokensB = .done (booksB, errorsB) ∧
      ∀ (ss : List Storage) (n : Nat) (dimOf : U → DimVal E), (∀ u, (dimOf u).length = n ∧ (dimOf u).Canonical) → ∀ (s : List ℝ), (∀ x ∈ s, 0 < x) →
      ∀ (unitA unitB : U → Nat) (fA fB : U → Magnitude) (xA xB : U → ℚ) (eA eB : U → Estimate),
        (∀ u, (defsA.units[unitA u]?.map (·.mag)) = some (fA u)) → (∀ u, (defsB.units[unitB u]?.map (·.mag)) = some (fB u)) →
        (∀ u, (exactA.units[unitA u]?.map (·.mag)) = some (xA u)) → (∀ u, (exactB.units[unitB u]?.map (·.mag)) = some (xB u)) →
        (∀ u, (booksA.units[unitA u]?.map (·.mag)) = some (eA u)) → (∀ u, (booksB.units[unitB u]?.map (·.mag)) = some (eB u)) →
        (∀ u, (xB u : ℝ) = xA u * DimVal.scale s (dimOf u)) →
      ∀ (Γ : List (Ty E)), (∀ t ∈ Γ, t.WF n) → ∀ (p : Branching E U) (t : Ty E), BranchingChecks ss n dimOf (FaithfulCall n) Γ p t →
      ∀ (ρA ρB : List (Val Fl Magnitude)) (βA βB : List (Val Bounded Bounded)) (ρ : List (Val ℝ ℝ)), ArgsHaveTy ρ Γ →
        List.Forall₂ (Val.Rel (Bounded.Holds t₀) (Bounded.HoldsFactor P.lib)) ρA βA →
        List.Forall₂ (Val.Rel (Bounded.Holds t₀) (Bounded.HoldsFactor P.lib)) ρB βB →
        List.Forall₂ (Val.Rel (fun r b => r = b.value) (fun r b => r = b.value)) ρ βA →
        List.Forall₂ (Val.Rel (fun r b => r = b.value) (fun r b => r = b.value)) (rescaleAll s Γ ρ) βB →
        p.Clear std t₀ n (fun u => (eA u).bounded std) βA → p.Clear std t₀ n (fun u => (eB u).bounded std) βB →
      ∀ (bA bB : Val Bounded Bounded), (letI := bookPrims std t₀; p.eval n (fun u => (eA u).bounded std) βA = some bA) →
        (letI := bookPrims std t₀; p.eval n (fun u => (eB u).bounded std) βB = some bB) →
      ∃ a b, (letI := softPrims P; p.eval n fA ρA = some a) ∧ (letI := softPrims P; p.eval n fB ρB = some b) ∧
        a.numbers.length = b.numbers.length ∧
        ∀ (j : Nat) (x y : Fl) (A B : Bounded), a.numbers[j]? = some x → b.numbers[j]? = some y → bA.numbers[j]? = some A → bB.numbers[j]? = some B →
          A.ok → B.ok → ∃ p q : ℚ, t₀.fmt.val x = some p ∧ t₀.fmt.val y = some q ∧ |(p : ℝ) * t.scale s - q| ≤ A.err * t.scale s + B.err := by
  obtain ⟨exactA, booksA, h1, h2, runA⟩ := C51_accurate_system (E := E) (U := U) hP t₀ tokensA defsA errorsA hA
  obtain ⟨exactB, booksB, h3, h4, runB⟩ := C51_accurate_system (E := E) (U := U) hP t₀ tokensB defsB errorsB hB
  refine ⟨exactA, exactB, booksA, booksB, h1, h3, h2, h4, ?_⟩
  intro ss n dimOf hdim s hs unitA unitB fA fB xA xB eA eB a1 b1 a2 b2 a3 b3 rebased Γ hΓ p t checks ρA ρB βA βB ρ typed iA iB xa xb cA cB bA bB rA rB
  have holdsA : ∀ u, Bounded.HoldsFactor P.lib (fA u) ((eA u).bounded std) ∧ (xA u : ℝ) = ((eA u).bounded std).value := by
    intro u
    obtain ⟨w, x, hw, hx, rw', rx⟩ := runA n (.unit u) unitA fA xA eA a1 a2 a3 [] [] [] .nil .nil _ rfl
    cases hw; cases hx
    exact ⟨rw', rx⟩
  have holdsB : ∀ u, Bounded.HoldsFactor P.lib (fB u) ((eB u).bounded std) ∧ (xB u : ℝ) = ((eB u).bounded std).value := by
    intro u
    obtain ⟨w, x, hw, hx, rw', rx⟩ := runB n (.unit u) unitB fB xB eB b1 b2 b3 [] [] [] .nil .nil _ rfl
    cases hw; cases hx
    exact ⟨rw', rx⟩
  exact C79_branching hP t₀ hdim hΓ p t checks s hs fA fB _ _ (fun u => (holdsA u).1) (fun u => (holdsB u).1)
    (fun u => by rw [← (holdsA u).2, ← (holdsB u).2]; exact rebased u) ρA ρB βA βB ρ typed iA iB xa xb cA cB bA bB rA rB
end

/-! ## An example -/

/-- `fn nearest(a: Length<f64>, b: Length<f64>) -> f64 { if a < b { a.value_in(kilometers) } else { b.value_in(kilometers) } }` -/
def C79.nearest : Branching Int Unit :=
  .ifCompare .lt (.generated ⟨.partialOrd, qG, qG⟩ .f64 .f64) (.var 0) (.var 1) (.result (C79.inKilometersOf 0)) (.result (C79.inKilometersOf 1))

-- All hypotheses of C79_branching hold for 7000 and 7001 metres in a system based on metres and in one based on centimetres. The results agree up to 2^-49.
example [IdealFns] (std : Bool) (P : PlatformFns) (hP : P.Ieee std) : ∃ (x y : Fl) (p q : ℚ),
    (letI := softPrims P; C79.nearest.eval 1 (fun _ => Magnitude.fromF64 (f64Fmt.ofInt 1000)) [.quantity [f64Fmt.ofInt 7000], .quantity [f64Fmt.ofInt 7001]]
      = some (.bare [x])) ∧
    (letI := softPrims P; C79.nearest.eval 1 (fun _ => Magnitude.fromF64 (f64Fmt.ofInt 100000)) [.quantity [f64Fmt.ofInt 700000], .quantity [f64Fmt.ofInt 700100]]
      = some (.bare [y])) ∧
    f64Fmt.val x = some p ∧ f64Fmt.val y = some q ∧ |(p : ℝ) - q| ≤ 1 / 2 ^ 49 := by
  have chk : ∀ k, k < 2 → CalcChecks [.f64] 1 (fun _ => [1]) (FaithfulCall 1) [.quantity .f64 [1], .quantity .f64 [1]] (.inl (C79.inKilometersOf k, .bare .f64)) := by
    intro k hk
    refine .call ⟨rfl, by simp, trivial⟩ rfl (.cons (.var ?_) (.cons .unit .nil))
    match k, hk with
    | 0, _ => rfl
    | 1, _ => rfl
  have checks : BranchingChecks [.f64] 1 (fun _ => [1]) (FaithfulCall 1) [.quantity .f64 [1], .quantity .f64 [1]] C79.nearest (.bare .f64) := by
    refine .ifCompare (lt := .quantity .f64 [1]) (rt := .quantity .f64 [1]) (.var rfl) (.var rfl) ⟨by decide +kernel, ⟨1, [1], [], [], .f64, .f64, .f64⟩,
      ⟨.value, .quantity .f64 [1]⟩, ⟨.value, .quantity .f64 [1]⟩, rfl, ⟨rfl, rfl, rfl, rfl, .f64, rfl, rfl⟩, rfl, rfl, rfl, rfl⟩
      (.result (chk 0 (by norm_num))) (.result (chk 1 (by norm_num)))
  have scale : DimVal.scale [100] ([1] : DimVal Int) = 100 := by simp [DimVal.scale, DimVal.vec, val]
  have book : ∀ v w f : ℝ, v < w → C79.nearest.Clear std .f64 1 (fun _ => Bounded.exactly f) [.quantity [.exactly v], .quantity [.exactly w]] ∧
      ∃ b : Bounded, (letI := bookPrims std .f64
        C79.nearest.eval 1 (fun _ => Bounded.exactly f) [.quantity [.exactly v], .quantity [.exactly w]] = some (.bare [b])) ∧
        b = (Bounded.div .f64 (.exactly v) ((Bounded.exactly f).only .f64 .f64)).only .f64 .f64 := by
    intro v w f h
    have hc : compare v w = .lt := compare_lt_iff_lt.2 h
    refine ⟨⟨⟨rfl, rfl⟩, _, _, _, _, ⟨rfl, rfl⟩, rfl, rfl, trivial, trivial, ?_, ?_⟩, _, ?_, rfl⟩
    · simpa [Bounded.exactly] using sub_ne_zero.2 h.ne
    · simp [Bounded.exactly, hc, Relation.holds, Branching.Clear]
    · let := bookPrims std .f64
      have hrun : Comparator.run (.generated ⟨.partialOrd, qG, qG⟩ .f64 .f64) (.quantity [.exactly v] : Val Bounded Bounded) (.quantity [.exactly w])
          = some (partialCmp Bounded .f64 (Bounded.exactly v) (Bounded.exactly w)) := rfl
      have hcmp : partialCmp Bounded .f64 (Bounded.exactly v) (Bounded.exactly w)
          = if decide (v = w) then some .eq else if decide (v < w) then some .lt else if decide (w < v) then some .gt else none := rfl
      simp only [h.ne, h, decide_true, decide_false, if_true, Bool.false_eq_true, if_false] at hcmp
      simp only [C79.nearest, Branching.eval, Calc.eval, List.getElem?_cons_zero, List.getElem?_cons_succ, Option.bind_eq_bind, Option.bind_some, hrun, hcmp,
        Relation.holds, beq_self_eq_true, if_true]
      rfl
  obtain ⟨clearA, bA, rA, eA⟩ := book 7000 7001 1000 (by norm_num)
  obtain ⟨clearB, bB, rB, eB⟩ := book 700000 700100 100000 (by norm_num)
  obtain ⟨a, b, h1, h2, hl, h3⟩ := C79_branching hP .f64 (ss := [.f64]) (n := 1) (dimOf := fun _ => [1]) (fun _ => ⟨rfl, fun _ _ => trivial⟩)
    (Γ := [.quantity .f64 [1], .quantity .f64 [1]])
    (by intro t ht; simp at ht; subst ht; intro d hd; injection hd with hd; subst hd; exact ⟨rfl, fun _ _ => trivial⟩)
    C79.nearest (.bare .f64) checks [100] (by simp)
    (fun _ => Magnitude.fromF64 (f64Fmt.ofInt 1000))
    (fun _ => Magnitude.fromF64 (f64Fmt.ofInt 100000)) (fun _ => .exactly 1000) (fun _ => .exactly 100000) (fun _ => (C79.factor hP).1)
    (fun _ => (C79.factor hP).2) (fun _ => by rw [scale]; norm_num [Bounded.exactly]) [.quantity [f64Fmt.ofInt 7000], .quantity [f64Fmt.ofInt 7001]]
    [.quantity [f64Fmt.ofInt 700000], .quantity [f64Fmt.ofInt 700100]] [.quantity [.exactly 7000], .quantity [.exactly 7001]]
    [.quantity [.exactly 700000], .quantity [.exactly 700100]] [.quantity [7000], .quantity [7001]] (.cons rfl (.cons rfl .nil))
    (.cons (.cons (fun _ => ⟨7000, by decide +kernel, by simp [Bounded.exactly]⟩) .nil)
      (.cons (.cons (fun _ => ⟨7001, by decide +kernel, by simp [Bounded.exactly]⟩) .nil) .nil))
    (.cons (.cons (fun _ => ⟨700000, by decide +kernel, by simp [Bounded.exactly]⟩) .nil)
      (.cons (.cons (fun _ => ⟨700100, by decide +kernel, by simp [Bounded.exactly]⟩) .nil) .nil))
    (.cons (.cons rfl .nil) (.cons (.cons rfl .nil) .nil))
    (.cons (.cons (by simp only [Ty.scale, scale, Bounded.exactly]; norm_num) .nil)
      (.cons (.cons (by simp only [Ty.scale, scale, Bounded.exactly]; norm_num) .nil) .nil)) clearA clearB _ _ rA rB
  have hl' : (2 : ℝ) ^ (20 : ℤ) ≤ 2 ^ (1023 : ℤ) := zpow_le_zpow_right₀ (by norm_num) (by norm_num)
  have hη : (2 : ℝ) ^ (-1075 : ℤ) ≤ 2 ^ (-60 : ℤ) := zpow_le_zpow_right₀ (by norm_num) (by norm_num)
  have ok : (bA.ok ∧ bB.ok) ∧ bA.err + bB.err ≤ 1 / 2 ^ 49 := by
    subst eA; subst eB
    simp only [Bounded.only, Bounded.div, Bounded.rounded, Bounded.exactly, FloatTy.unitRoundoff, FloatTy.underflowUnit, FloatTy.large]
    generalize (2 : ℝ) ^ (-1075 : ℤ) = η at *
    generalize (2 : ℝ) ^ (1023 : ℤ) = L at *
    norm_num [abs_of_pos] at hη hl' ⊢
    constructorm* _ ∧ _ <;> linarith
  have shape : ∀ {d : Magnitude} {i j : Fl} {a : Val Fl Magnitude},
      (letI := softPrims P; C79.nearest.eval 1 (fun _ => d) [.quantity [i], .quantity [j]] = some a) → ∃ x, a = .bare [x] := by
    intro d i j a h
    let := softPrims P
    simp only [C79.nearest, Branching.eval, Calc.eval, List.getElem?_cons_zero, List.getElem?_cons_succ, Option.bind_eq_bind, Option.bind_some] at h
    obtain ⟨o, -, h⟩ := Option.bind_eq_some_iff.1 h
    split at h <;> exact ⟨_, (Option.some.inj h).symm⟩
  obtain ⟨x, rfl⟩ := shape h1
  obtain ⟨y, rfl⟩ := shape h2
  obtain ⟨p, q, hp, hq, hpq⟩ := h3 0 x y bA bB rfl rfl rfl rfl ok.1.1 ok.1.2
  refine ⟨x, y, p, q, h1, h2, hp, hq, ?_⟩
  simp only [Ty.scale, mul_one] at hpq
  exact hpq.trans ok.2
end Diman
