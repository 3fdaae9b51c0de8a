import Verif.Spec.CalcTyping
import Verif.Props.C21
import Verif.Props.C51
import Verif.Props.C60
/-!
# C79 — in floats, the choice of base units changes results by rounding only
-/
set_option linter.style.haveILetI false
set_option linter.unusedSectionVars false
namespace Diman
open LawfulExponent

section
variable [IdealFns] {E U : Type} [Exponent E] [LawfulExponent E] [FieldOps E] [LawfulFieldOps E] [DecidableEq E]

/-- Everything about one calculation or argument list, for all values of the variables. -/
def CalcScale (n : Nat) (dimOf : U → DimVal E) (fac : U → ℝ) (s : List ℝ) (Γ : List (Ty E)) : Sum (Calc E U × Ty E) (Calcs E U × List (Ty E)) → Prop
  | .inl (e, t) => t.WF n ∧ ∀ ρ, ArgsHaveTy ρ Γ → (∀ v, e.eval n fac ρ = some v → v.HasTy t) ∧
      e.eval n (fun u => fac u * DimVal.scale s (dimOf u)) (rescaleAll s Γ ρ) = (e.eval n fac ρ).map (Val.rescale s t)
  | .inr (es, ts) => (∀ t ∈ ts, t.WF n) ∧ ∀ ρ, ArgsHaveTy ρ Γ → (∀ vs, es.eval n fac ρ = some vs → ArgsHaveTy vs ts) ∧
      es.eval n (fun u => fac u * DimVal.scale s (dimOf u)) (rescaleAll s Γ ρ) = (es.eval n fac ρ).map (rescaleAll s ts)

theorem calc_scale {ss : List Storage} {n : Nat} {dimOf : U → DimVal E} (hdim : ∀ u, (dimOf u).length = n ∧ (dimOf u).Canonical)
    {Γ : List (Ty E)} (hΓ : ∀ t ∈ Γ, t.WF n) {fac : U → ℝ} {s : List ℝ} (hs : ∀ x ∈ s, 0 < x)
    {j} (h : CalcChecks ss n dimOf (FaithfulCall n) Γ j) : CalcScale n dimOf fac s Γ j := by
  induction h with
  | @var Γ x t hx =>
    refine ⟨hΓ _ (List.mem_of_getElem? hx), fun ρ hρ => ⟨?_, rescaleAll_getElem? hx⟩⟩
    intro v hv
    simp only [Calc.eval] at hv
    obtain ⟨hlt, e1⟩ := List.getElem?_eq_some_iff.1 hx
    obtain ⟨hlt', e2⟩ := List.getElem?_eq_some_iff.1 hv
    rw [← e1, ← e2]
    exact List.Forall₂.get hρ hlt' hlt
  | @unit Γ u =>
    refine ⟨?_, fun ρ hρ => ⟨?_, rfl⟩⟩
    · intro d hd; injection hd with hd; subst hd; exact hdim u
    · intro v hv; cases hv; trivial
  | @op Γ o i l r lt rt out res ho hn _ _ hty hres ihl ihr =>
    subst hn
    obtain ⟨wl, tl⟩ := ihl hΓ
    obtain ⟨wr, tr⟩ := ihr hΓ
    have hres' : res = out.ty lt.ty := by rw [hres]; cases out <;> rfl
    subst hres'
    clear hres
    refine ⟨(op_rule hs ho hty wl wr).2, fun ρ hρ => ⟨?_, ?_⟩⟩
    · intro v hv
      simp only [Calc.eval, bindM_eq_some] at hv
      obtain ⟨a, ha, b, hb, hv⟩ := hv
      obtain ⟨v', h1, h2⟩ := op_sound ho hty ((tl ρ hρ).1 a ha) ((tr ρ hρ).1 b hb)
      rw [hv] at h1; cases h1; exact h2
    · simp only [Calc.eval]
      rw [(tl ρ hρ).2, (tr ρ hρ).2]
      cases ha : l.eval i.n fac ρ with
      | none => rfl
      | some a =>
        cases hb : r.eval i.n fac ρ with
        | none => rfl
        | some b =>
          simp only [Option.map_some, Option.bind_eq_bind, Option.bind_some]
          exact op_scale hs ho hty wl wr ((tl ρ hρ).1 a ha) ((tr ρ hρ).1 b hb) _ _
  | @call Γ f tys args t hok hsig _ ih =>
    obtain ⟨w, ht⟩ := ih hΓ
    refine ⟨fn_wf hsig w hok.2.2, fun ρ hρ => ⟨?_, ?_⟩⟩
    · intro v hv
      simp only [Calc.eval, bindM_eq_some] at hv
      obtain ⟨vs, hvs, hv⟩ := hv
      rcases fn_sound hsig ((ht ρ hρ).1 vs hvs) with ⟨v', h1, h2⟩ | ⟨-, h1⟩
      · rw [hv] at h1; cases h1; exact h2
      · rw [hv] at h1; cases h1
    · simp only [Calc.eval]
      rw [(ht ρ hρ).2]
      cases hvs : args.eval n fac ρ with
      | none => rfl
      | some vs =>
        simp only [Option.map_some, Option.bind_eq_bind, Option.bind_some]
        exact fn_scale hs hok w hsig ((ht ρ hρ).1 vs hvs)
  | @letIn Γ a b u t _ _ iha ihb =>
    obtain ⟨wa, ta⟩ := iha hΓ
    obtain ⟨wb, tb⟩ := ihb (by simpa using ⟨wa, hΓ⟩)
    refine ⟨wb, fun ρ hρ => ⟨?_, ?_⟩⟩
    · intro v hv
      simp only [Calc.eval, bindM_eq_some] at hv
      obtain ⟨x, hx, hv⟩ := hv
      exact (tb (x :: ρ) (.cons ((ta ρ hρ).1 x hx) hρ)).1 v hv
    · simp only [Calc.eval]
      rw [(ta ρ hρ).2]
      cases hx : a.eval n fac ρ with
      | none => rfl
      | some x =>
        simp only [Option.map_some, Option.bind_eq_bind, Option.bind_some]
        exact (tb (x :: ρ) (.cons ((ta ρ hρ).1 x hx) hρ)).2
  | nil => exact ⟨by simp, fun ρ hρ => ⟨fun vs hvs => by cases hvs; exact .nil, rfl⟩⟩
  | @cons Γ a as t ts _ _ iha ihas =>
    obtain ⟨wa, ta⟩ := iha hΓ
    obtain ⟨was, tas⟩ := ihas hΓ
    refine ⟨by simpa using ⟨wa, was⟩, fun ρ hρ => ⟨?_, ?_⟩⟩
    · intro vs hvs
      simp only [Calcs.eval, bindM_eq_some, pure_eq_some] at hvs
      obtain ⟨v, hv, vs', hvs', rfl⟩ := hvs
      exact .cons ((ta ρ hρ).1 v hv) ((tas ρ hρ).1 vs' hvs')
    · simp only [Calcs.eval]
      rw [(ta ρ hρ).2, (tas ρ hρ).2]
      cases a.eval n fac ρ with
      | none => rfl
      | some v =>
        cases as.eval n fac ρ with
        | none => rfl
        | some vs => rfl

theorem rel_numbers {K K' M M' : Type} {R : K → K' → Prop} {S : M → M' → Prop} {v : Val K M} {w : Val K' M'} (h : Val.Rel R S v w) :
    List.Forall₂ R v.numbers w.numbers := by
  cases v <;> cases w <;> simp_all [Val.Rel, Val.numbers]

theorem numbers_smul (c : ℝ) (v : Val ℝ ℝ) : (v.smul c).numbers = v.numbers.map (· * c) := by
  cases v <;> simp [Val.smul, Val.numbers]

/-- What the accuracy of two runs says about their difference. -/
theorem runs_agree {lib lib' : FloatLib} {t₀ : FloatTy} {t : Ty E} {s : List ℝ} (hs : ∀ x ∈ s, 0 < x) {a b : Val Fl Magnitude} {x y : Val ℝ ℝ}
    {bA bB : Val Bounded Bounded} (ra : Val.Rel (Bounded.Holds t₀) (Bounded.HoldsFactor lib) a bA)
    (rx : Val.Rel (fun r b => r = b.value) (fun r b => r = b.value) x bA) (rb : Val.Rel (Bounded.Holds t₀) (Bounded.HoldsFactor lib') b bB)
    (ry : Val.Rel (fun r b => r = b.value) (fun r b => r = b.value) y bB) (key : y = Val.rescale s t x) :
    a.numbers.length = b.numbers.length ∧
      ∀ (j : Nat) (x y : Fl) (A B : Bounded), a.numbers[j]? = some x → b.numbers[j]? = some y → bA.numbers[j]? = some A → bB.numbers[j]? = some B →
        A.ok → B.ok → ∃ p q : ℚ, t₀.fmt.val x = some p ∧ t₀.fmt.val y = some q ∧ |(p : ℝ) * t.scale s - q| ≤ A.err * t.scale s + B.err := by
  have na := rel_numbers ra
  have nb := rel_numbers rb
  have nx := rel_numbers rx
  have ny := rel_numbers ry
  rw [key, Val.rescale, numbers_smul] at ny
  refine ⟨?_, ?_⟩
  · have l1 := na.length_eq; have l2 := nb.length_eq; have l3 := nx.length_eq; have l4 := ny.length_eq
    rw [List.length_map] at l4
    omega
  · intro j fx fy A B h1 h2 h3 h4 okA okB
    have get : ∀ {α β : Type} {R : α → β → Prop} {l : List α} {l' : List β} {i : Nat} {u : α} {v : β}, List.Forall₂ R l l' → l[i]? = some u → l'[i]? = some v →
        R u v := by
      intro α β R l l' i u v h e1 e2
      obtain ⟨g1, e1⟩ := List.getElem?_eq_some_iff.1 e1
      obtain ⟨g2, e2⟩ := List.getElem?_eq_some_iff.1 e2
      rw [← e1, ← e2]
      exact List.Forall₂.get h g1 g2
    obtain ⟨p, hp, ep⟩ := get na h1 h3 okA
    obtain ⟨q, hq, eq⟩ := get nb h2 h4 okB
    have hlt : j < x.numbers.length := by
      rw [nx.length_eq]; exact (List.getElem?_eq_some_iff.1 h3).1
    have e1 : x.numbers[j]? = some x.numbers[j] := List.getElem?_eq_getElem hlt
    have vA := get nx e1 h3
    have vB := get ny (u := x.numbers[j] * t.scale s) (by rw [List.getElem?_map, e1]; rfl) h4
    refine ⟨p, q, hp, hq, ?_⟩
    rw [← vA] at ep
    rw [← vB] at eq
    have hpos := Ty.scale_pos hs t
    have : (p : ℝ) * t.scale s - q = ((p : ℝ) - x.numbers[j]) * t.scale s - ((q : ℝ) - x.numbers[j] * t.scale s) := by ring
    rw [this]
    refine (abs_sub _ _).trans ?_
    rw [abs_mul, abs_of_pos hpos]
    exact add_le_add (mul_le_mul_of_nonneg_right ep hpos.le) eq

/-- **C79.** The same type-checked calculation is run in two unit systems whose base units differ (base unit `k` of system B is `s k` times smaller), each with its
own conversion factors and its own inputs as floats, known up to the errors of their books. Then it runs in both, gives as many numbers, and every number of the
result in A, converted to the base units of B, differs from that in B by at most the errors that the books of the two runs give. -/
theorem C79_rounding_only {P : PlatformFns} {std : Bool} (hP : P.Ieee std) (t₀ : FloatTy) {ss : List Storage} {n : Nat} {dimOf : U → DimVal E}
    (dimensions : ∀ u, (dimOf u).length = n ∧ (dimOf u).Canonical) {Γ : List (Ty E)} (hΓ : ∀ t ∈ Γ, t.WF n) (c : Calc E U) (t : Ty E)
    (checks : CalcChecks ss n dimOf (FaithfulCall n) Γ (.inl (c, t))) (s : List ℝ) (hs : ∀ x ∈ s, 0 < x)
    (fA fB : U → Magnitude) (bookA bookB : U → Bounded) (factorsA : ∀ u, Bounded.HoldsFactor P.lib (fA u) (bookA u))
    (factorsB : ∀ u, Bounded.HoldsFactor P.lib (fB u) (bookB u)) (rebased : ∀ u, (bookB u).value = (bookA u).value * DimVal.scale s (dimOf u))
    (ρA ρB : List (Val Fl Magnitude)) (βA βB : List (Val Bounded Bounded)) (ρ : List (Val ℝ ℝ)) (typed : ArgsHaveTy ρ Γ)
    (inputsA : List.Forall₂ (Val.Rel (Bounded.Holds t₀) (Bounded.HoldsFactor P.lib)) ρA βA)
    (inputsB : List.Forall₂ (Val.Rel (Bounded.Holds t₀) (Bounded.HoldsFactor P.lib)) ρB βB)
    (exactA : List.Forall₂ (Val.Rel (fun r b => r = b.value) (fun r b => r = b.value)) ρ βA)
    (exactB : List.Forall₂ (Val.Rel (fun r b => r = b.value) (fun r b => r = b.value)) (rescaleAll s Γ ρ) βB)
    (bA bB : Val Bounded Bounded) (runA : letI := bookPrims std t₀; c.eval n bookA βA = some bA)
    (runB : letI := bookPrims std t₀; c.eval n bookB βB = some bB) :
    ∃ a b, (letI := softPrims P; c.eval n fA ρA = some a) ∧ (letI := softPrims P; c.eval n fB ρB = some b) ∧
      a.numbers.length = b.numbers.length ∧
      ∀ (j : Nat) (x y : Fl) (A B : Bounded), a.numbers[j]? = some x → b.numbers[j]? = some y → bA.numbers[j]? = some A → bB.numbers[j]? = some B →
        A.ok → B.ok → ∃ p q : ℚ, t₀.fmt.val x = some p ∧ t₀.fmt.val y = some q ∧ |(p : ℝ) * t.scale s - q| ≤ A.err * t.scale s + B.err := by
  obtain ⟨a, x, ha, hx, ra, rx⟩ := C51_accurate hP t₀ n c fA bookA factorsA ρA βA ρ inputsA exactA runA
  obtain ⟨b, y, hb, hy, rb, ry⟩ := C51_accurate hP t₀ n c fB bookB factorsB ρB βB _ inputsB exactB runB
  have hf : (fun u => (bookB u).value) = fun u => (bookA u).value * DimVal.scale s (dimOf u) := funext rebased
  have key := ((calc_scale (fac := fun u => (bookA u).value) dimensions hΓ hs checks).2 ρ typed).2
  rw [← hf, hy, hx, Option.map_some, Option.some.injEq] at key
  exact ⟨a, b, ha, hb, runs_agree hs ra rx rb ry key⟩

/-- **C79, unit systems.** The same for the units that the macro generates for two unit systems (texts A and B, both accepted or not), with the error books that C47
gives for their conversion factors. `fx` are the exact factors that the definitions denote; that they differ by the change of base units is what C60_rebase shows of two
systems in which the same statements are true. -/
theorem C79_systems {P : PlatformFns} {std : Bool} (hP : P.Ieee std) (t₀ : FloatTy) (tokensA tokensB : List Tok) (defsA defsB : Defs Int Magnitude)
    (errorsA errorsB : List Diag)
    (hA : @unitSystem Int Magnitude _ Number.magnitude _ (magOpsInt P.lib) Prefix.factor tokensA = .done (defsA, errorsA))
    (hB : @unitSystem Int Magnitude _ Number.magnitude _ (magOpsInt P.lib) Prefix.factor tokensB = .done (defsB, errorsB)) :
    ∃ (exactA exactB : Defs Int ℚ) (booksA booksB : Defs Int Estimate),
      @unitSystem Int ℚ _ Number.exact _ rationalOps Prefix.literal tokensA = .done (exactA, errorsA) ∧
      @unitSystem Int ℚ _ Number.exact _ rationalOps Prefix.literal tokensB = .done (exactB, errorsB) ∧
      @unitSystem Int Estimate _ Number.estimate _ estimateOps Prefix.estimate tokensA = .done (booksA, errorsA) ∧
      @unitSystem Int Estimate _ Number.estimate _ estimateOps Prefix.estimate tokensB = .done (booksB, errorsB) ∧
      ∀ (ss : List Storage) (n : Nat) (dimOf : U → DimVal E), (∀ u, (dimOf u).length = n ∧ (dimOf u).Canonical) → ∀ (s : List ℝ), (∀ x ∈ s, 0 < x) →
      ∀ (unitA unitB : U → Nat) (fA fB : U → Magnitude) (xA xB : U → ℚ) (eA eB : U → Estimate),
        (∀ u, (defsA.units[unitA u]?.map (·.mag)) = some (fA u)) → (∀ u, (defsB.units[unitB u]?.map (·.mag)) = some (fB u)) →
        (∀ u, (exactA.units[unitA u]?.map (·.mag)) = some (xA u)) → (∀ u, (exactB.units[unitB u]?.map (·.mag)) = some (xB u)) →
        (∀ u, (booksA.units[unitA u]?.map (·.mag)) = some (eA u)) → (∀ u, (booksB.units[unitB u]?.map (·.mag)) = some (eB u)) →
        (∀ u, (xB u : ℝ) = xA u * DimVal.scale s (dimOf u)) →
      ∀ (Γ : List (Ty E)), (∀ t ∈ Γ, t.WF n) → ∀ (c : Calc E U) (t : Ty E), CalcChecks ss n dimOf (FaithfulCall n) Γ (.inl (c, t)) →
      ∀ (ρA ρB : List (Val Fl Magnitude)) (βA βB : List (Val Bounded Bounded)) (ρ : List (Val ℝ ℝ)), ArgsHaveTy ρ Γ →
        List.Forall₂ (Val.Rel (Bounded.Holds t₀) (Bounded.HoldsFactor P.lib)) ρA βA →
        List.Forall₂ (Val.Rel (Bounded.Holds t₀) (Bounded.HoldsFactor P.lib)) ρB βB →
        List.Forall₂ (Val.Rel (fun r b => r = b.value) (fun r b => r = b.value)) ρ βA →
        List.Forall₂ (Val.Rel (fun r b => r = b.value) (fun r b => r = b.value)) (rescaleAll s Γ ρ) βB →
      ∀ (bA bB : Val Bounded Bounded), (letI := bookPrims std t₀; c.eval n (fun u => (eA u).bounded std) βA = some bA) →
        (letI := bookPrims std t₀; c.eval n (fun u => (eB u).bounded std) βB = some bB) →
      ∃ a b, (letI := softPrims P; c.eval n fA ρA = some a) ∧ (letI := softPrims P; c.eval n fB ρB = some b) ∧
        a.numbers.length = b.numbers.length ∧
        ∀ (j : Nat) (x y : Fl) (A B : Bounded), a.numbers[j]? = some x → b.numbers[j]? = some y → bA.numbers[j]? = some A → bB.numbers[j]? = some B →
          A.ok → B.ok → ∃ p q : ℚ, t₀.fmt.val x = some p ∧ t₀.fmt.val y = some q ∧ |(p : ℝ) * t.scale s - q| ≤ A.err * t.scale s + B.err := by
  obtain ⟨exactA, booksA, h1, h2, runA⟩ := C51_accurate_system (E := E) (U := U) hP t₀ tokensA defsA errorsA hA
  obtain ⟨exactB, booksB, h3, h4, runB⟩ := C51_accurate_system (E := E) (U := U) hP t₀ tokensB defsB errorsB hB
  refine ⟨exactA, exactB, booksA, booksB, h1, h3, h2, h4, ?_⟩
  intro ss n dimOf hdim s hs unitA unitB fA fB xA xB eA eB a1 b1 a2 b2 a3 b3 rebased Γ hΓ c t checks ρA ρB βA βB ρ typed iA iB xa xb bA bB rA rB
  obtain ⟨a, x, ha, hx, ra, rx⟩ := runA n c unitA fA xA eA a1 a2 a3 ρA βA ρ iA xa bA rA
  obtain ⟨b, y, hb, hy, rb, ry⟩ := runB n c unitB fB xB eB b1 b2 b3 ρB βB _ iB xb bB rB
  have hf : (fun u => (xB u : ℝ)) = fun u => (xA u : ℝ) * DimVal.scale s (dimOf u) := funext rebased
  have key := ((calc_scale (fac := fun u => (xA u : ℝ)) hdim hΓ hs checks).2 ρ typed).2
  rw [← hf, hy, hx, Option.map_some, Option.some.injEq] at key
  exact ⟨a, b, ha, hb, runs_agree hs ra rx rb ry key⟩

/-- **C79, plain results.** A number, or a dimensionless quantity, differs between the two systems by at most the sum of the two error bounds. -/
theorem C79_plain {P : PlatformFns} {std : Bool} (hP : P.Ieee std) (t₀ : FloatTy) {ss : List Storage} {n : Nat} {dimOf : U → DimVal E}
    (dimensions : ∀ u, (dimOf u).length = n ∧ (dimOf u).Canonical) {Γ : List (Ty E)} (hΓ : ∀ t ∈ Γ, t.WF n) (c : Calc E U) (t : Ty E)
    (plain : t.dim n = none ∨ t.dim n = some (DimVal.none n))
    (checks : CalcChecks ss n dimOf (FaithfulCall n) Γ (.inl (c, t))) (s : List ℝ) (hs : ∀ x ∈ s, 0 < x)
    (fA fB : U → Magnitude) (bookA bookB : U → Bounded) (factorsA : ∀ u, Bounded.HoldsFactor P.lib (fA u) (bookA u))
    (factorsB : ∀ u, Bounded.HoldsFactor P.lib (fB u) (bookB u)) (rebased : ∀ u, (bookB u).value = (bookA u).value * DimVal.scale s (dimOf u))
    (ρA ρB : List (Val Fl Magnitude)) (βA βB : List (Val Bounded Bounded)) (ρ : List (Val ℝ ℝ)) (typed : ArgsHaveTy ρ Γ)
    (inputsA : List.Forall₂ (Val.Rel (Bounded.Holds t₀) (Bounded.HoldsFactor P.lib)) ρA βA)
    (inputsB : List.Forall₂ (Val.Rel (Bounded.Holds t₀) (Bounded.HoldsFactor P.lib)) ρB βB)
    (exactA : List.Forall₂ (Val.Rel (fun r b => r = b.value) (fun r b => r = b.value)) ρ βA)
    (exactB : List.Forall₂ (Val.Rel (fun r b => r = b.value) (fun r b => r = b.value)) (rescaleAll s Γ ρ) βB)
    (bA bB : Val Bounded Bounded) (runA : letI := bookPrims std t₀; c.eval n bookA βA = some bA)
    (runB : letI := bookPrims std t₀; c.eval n bookB βB = some bB) :
    ∃ a b, (letI := softPrims P; c.eval n fA ρA = some a) ∧ (letI := softPrims P; c.eval n fB ρB = some b) ∧
      ∀ (j : Nat) (x y : Fl) (A B : Bounded), a.numbers[j]? = some x → b.numbers[j]? = some y → bA.numbers[j]? = some A → bB.numbers[j]? = some B →
        A.ok → B.ok → ∃ p q : ℚ, t₀.fmt.val x = some p ∧ t₀.fmt.val y = some q ∧ |(p : ℝ) - q| ≤ A.err + B.err := by
  obtain ⟨a, b, h1, h2, -, h3⟩ := C79_rounding_only hP t₀ dimensions hΓ c t checks s hs fA fB bookA bookB factorsA factorsB rebased ρA ρB βA βB ρ typed inputsA
    inputsB exactA exactB bA bB runA runB
  have one : t.scale s = 1 := by
    cases t <;> simp only [Ty.dim, Option.some.injEq, reduceCtorEq, false_or, or_false, or_true] at plain <;>
      simp only [Ty.scale] <;> subst plain <;> exact DimVal.scale_none s n
  rw [one] at h3
  simp only [mul_one] at h3
  exact ⟨a, b, h1, h2, h3⟩
end

/-! ## An example -/

/-- `q.value_in(kilometers)` for a length `q`. -/
def C79.inKilometers : Calc Int Unit := .call .valueIn [.quantity .f64 [1], .unit [1]] (.cons (.var 0) (.cons (.unit ()) .nil))

theorem C79.factor {P : PlatformFns} {std : Bool} (hP : P.Ieee std) :
    Bounded.HoldsFactor P.lib (Magnitude.fromF64 (f64Fmt.ofInt 1000)) (.exactly 1000) ∧
    Bounded.HoldsFactor P.lib (Magnitude.fromF64 (f64Fmt.ofInt 100000)) (.exactly 100000) := by
  obtain ⟨powf, h⟩ := hP.lib
  have key : f64Fmt.val ((Magnitude.fromF64 (f64Fmt.ofInt 1000)).intoF64 P.lib) = some 1000 ∧
      f64Fmt.val ((Magnitude.fromF64 (f64Fmt.ofInt 100000)).intoF64 P.lib) = some 100000 := by
    rw [h]
    cases std <;> simp only [Magnitude.intoF64, buildLib, rtLib, ntLib, if_true, if_false, Bool.false_eq_true] <;> decide +kernel
  exact ⟨fun _ => ⟨_, key.1, by simp [Bounded.exactly]⟩, fun _ => ⟨_, key.2, by simp [Bounded.exactly]⟩⟩

-- All hypotheses of C79_plain hold for `(7000 * meters).value_in(kilometers)` in a system based on metres and in one based on centimetres. The books of both runs
-- are in order, and the two results differ by less than 2^-49.
example [IdealFns] (std : Bool) (P : PlatformFns) (hP : P.Ieee std) : ∃ (x y : Fl) (p q : ℚ),
    (letI := softPrims P; C79.inKilometers.eval 1 (fun _ => Magnitude.fromF64 (f64Fmt.ofInt 1000)) [.quantity [f64Fmt.ofInt 7000]] = some (.bare [x])) ∧
    (letI := softPrims P; C79.inKilometers.eval 1 (fun _ => Magnitude.fromF64 (f64Fmt.ofInt 100000)) [.quantity [f64Fmt.ofInt 700000]] = some (.bare [y])) ∧
    f64Fmt.val x = some p ∧ f64Fmt.val y = some q ∧ |(p : ℝ) - q| ≤ 1 / 2 ^ 49 := by
  have chk : CalcChecks [.f64] 1 (fun _ => [1]) (FaithfulCall 1) [.quantity .f64 [1]] (.inl (C79.inKilometers, .bare .f64)) :=
    .call ⟨rfl, by simp, trivial⟩ rfl (.cons (.var rfl) (.cons .unit .nil))
  have scale : DimVal.scale [100] ([1] : DimVal Int) = 100 := by simp [DimVal.scale, DimVal.vec, val]
  have book : ∀ v f : ℝ, ∃ b : Bounded, (letI := bookPrims std .f64
      C79.inKilometers.eval 1 (fun _ => .exactly f) [(.quantity [.exactly v] : Val Bounded Bounded)] = some (.bare [b])) ∧
      b = (Bounded.div .f64 (.exactly v) ((Bounded.exactly f).only .f64 .f64)).only .f64 .f64 := fun v f => ⟨_, rfl, rfl⟩
  obtain ⟨bA, rA, eA⟩ := book 7000 1000
  obtain ⟨bB, rB, eB⟩ := book 700000 100000
  obtain ⟨a, b, h1, h2, h3⟩ := C79_plain hP .f64 (ss := [.f64]) (n := 1) (dimOf := fun _ => [1]) (fun _ => ⟨rfl, fun _ _ => trivial⟩)
    (Γ := [.quantity .f64 [1]]) (by intro t ht; simp at ht; subst ht; intro d hd; injection hd with hd; subst hd; exact ⟨rfl, fun _ _ => trivial⟩)
    C79.inKilometers (.bare .f64) (.inr rfl) chk [100] (by simp) (fun _ => Magnitude.fromF64 (f64Fmt.ofInt 1000))
    (fun _ => Magnitude.fromF64 (f64Fmt.ofInt 100000)) (fun _ => .exactly 1000) (fun _ => .exactly 100000) (fun _ => (C79.factor hP).1)
    (fun _ => (C79.factor hP).2) (fun _ => by rw [scale]; norm_num [Bounded.exactly]) [.quantity [f64Fmt.ofInt 7000]] [.quantity [f64Fmt.ofInt 700000]]
    [.quantity [.exactly 7000]] [.quantity [.exactly 700000]] [.quantity [7000]] (.cons rfl .nil)
    (.cons (.cons (fun _ => ⟨7000, by decide +kernel, by simp [Bounded.exactly]⟩) .nil) .nil)
    (.cons (.cons (fun _ => ⟨700000, by decide +kernel, by simp [Bounded.exactly]⟩) .nil) .nil)
    (.cons (.cons rfl .nil) .nil)
    (.cons (.cons (by simp only [Ty.scale, scale, Bounded.exactly]; norm_num) .nil) .nil) _ _ rA rB
  have run : ∀ (m : Magnitude) (v : Fl), ∃ x, (letI := softPrims P; C79.inKilometers.eval 1 (fun _ => m) [.quantity [v]] = some (.bare [x])) := fun m v => ⟨_, rfl⟩
  obtain ⟨x, hx⟩ := run (Magnitude.fromF64 (f64Fmt.ofInt 1000)) (f64Fmt.ofInt 7000)
  obtain ⟨y, hy⟩ := run (Magnitude.fromF64 (f64Fmt.ofInt 100000)) (f64Fmt.ofInt 700000)
  rw [hx, Option.some.injEq] at h1
  rw [hy, Option.some.injEq] at h2
  subst h1; subst h2
  have hl : (2 : ℝ) ^ (20 : ℤ) ≤ 2 ^ (1023 : ℤ) := zpow_le_zpow_right₀ (by norm_num) (by norm_num)
  have hη : (2 : ℝ) ^ (-1075 : ℤ) ≤ 2 ^ (-60 : ℤ) := zpow_le_zpow_right₀ (by norm_num) (by norm_num)
  have ok : (bA.ok ∧ bB.ok) ∧ bA.err + bB.err ≤ 1 / 2 ^ 49 := by
    subst eA; subst eB
    simp only [Bounded.only, Bounded.div, Bounded.rounded, Bounded.exactly, FloatTy.unitRoundoff, FloatTy.underflowUnit, FloatTy.large]
    generalize (2 : ℝ) ^ (-1075 : ℤ) = η at *
    generalize (2 : ℝ) ^ (1023 : ℤ) = L at *
    norm_num [abs_of_pos] at hη hl ⊢
    refine ⟨?_, ?_⟩ <;> linarith
  obtain ⟨p, q, hp, hq, hpq⟩ := h3 0 x y bA bB rfl rfl rfl rfl ok.1.1 ok.1.2
  exact ⟨x, y, p, q, hx, hy, hp, hq, hpq.trans ok.2⟩
end Diman
