import Verif.Props.C35Rand
import Verif.Props.C53
import Verif.Props.C79
/-!
# C79 — comparisons do not depend on the choice of base units
-/
set_option linter.style.haveILetI false
set_option linter.unusedSectionVars false
namespace Diman
open LawfulExponent

theorem toRat_of_val {t : FloatTy} {x : Fl} {p : ℚ} (h : t.fmt.val x = some p) : x ≠ .nan ∧ t.fmt.toRat x = p := by
  cases x with
  | nan => simp [Fmt.val] at h
  | num s n =>
    simp only [Fmt.val] at h
    split at h
    · cases h
    · simp only [Option.some.injEq] at h
      exact ⟨by simp, by rw [← h]; simp only [Fmt.toRat]⟩

/-- core's comparison of two finite floats is that of their values. -/
theorem partialCmp_val (P : PlatformFns) (t : FloatTy) {x y : Fl} {p q : ℚ} (hx : t.fmt.val x = some p) (hy : t.fmt.val y = some q) :
    letI := softPrims P
    partialCmp Magnitude t x y = some (compare p q) := by
  obtain ⟨nx, ex⟩ := toRat_of_val hx
  obtain ⟨ny, ey⟩ := toRat_of_val hy
  have e := feq_iff_toRat t nx ny
  have l := lt_iff_toRat t nx ny
  have g := lt_iff_toRat t ny nx
  rw [ex, ey] at e l
  rw [ex, ey] at g
  simp only [partialCmp, Prims.eq, Prims.lt]
  rcases lt_trichotomy p q with h | h | h
  · have e' : x.feq y = false := by rw [← Bool.not_eq_true, e]; exact h.ne
    simp [e', l.2 h, compare_lt_iff_lt.2 h]
  · simp [e.2 h, compare_eq_iff_eq.2 h]
  · have e' : x.feq y = false := by rw [← Bool.not_eq_true, e]; exact h.ne'
    have l' : x.lt y = false := by rw [← Bool.not_eq_true, l]; exact h.not_gt
    simp [e', l', g.2 h, compare_gt_iff_gt.2 h]

/-- Two approximations that are closer to the exact values than these are to each other compare like them. -/
theorem compare_approx {p q : ℚ} {a b ε δ : ℝ} (hp : |(p : ℝ) - a| ≤ ε) (hq : |(q : ℝ) - b| ≤ δ) (h : ε + δ < |a - b|) :
    compare p q = compare a b := by
  obtain ⟨p1, p2⟩ := abs_le.1 hp
  obtain ⟨q1, q2⟩ := abs_le.1 hq
  rcases lt_trichotomy a b with ab | ab | ab
  · rw [abs_of_neg (sub_neg.2 ab)] at h
    have : (p : ℝ) < q := by linarith
    rw [compare_lt_iff_lt.2 ab, compare_lt_iff_lt.2 (by exact_mod_cast this)]
  · subst ab
    have := (abs_nonneg _).trans hp
    have := (abs_nonneg _).trans hq
    simp at h
    linarith
  · rw [abs_of_pos (sub_pos.2 ab)] at h
    have : (q : ℝ) < p := by linarith
    rw [compare_gt_iff_gt.2 ab, compare_gt_iff_gt.2 (by exact_mod_cast this)]

section
variable [IdealFns] {E U : Type} [Exponent E] [LawfulExponent E] [FieldOps E] [LawfulFieldOps E] [DecidableEq E]

/-- One run: the floats of two results compare like their exact values, if these are further apart than the errors of the books. -/
theorem compare_run {P : PlatformFns} {std : Bool} (hP : P.Ieee std) (t₀ : FloatTy) (n : Nat) (c₁ c₂ : Calc E U) (f : U → Magnitude) (book : U → Bounded)
    (factors : ∀ u, Bounded.HoldsFactor P.lib (f u) (book u)) (ρ : List (Val Fl Magnitude)) (β : List (Val Bounded Bounded)) (σ : List (Val ℝ ℝ))
    (inputs : List.Forall₂ (Val.Rel (Bounded.Holds t₀) (Bounded.HoldsFactor P.lib)) ρ β)
    (exact : List.Forall₂ (Val.Rel (fun r b => r = b.value) (fun r b => r = b.value)) σ β)
    (b₁ b₂ : Val Bounded Bounded) (run₁ : letI := bookPrims std t₀; c₁.eval n book β = some b₁)
    (run₂ : letI := bookPrims std t₀; c₂.eval n book β = some b₂) :
    ∃ a₁ a₂ x₁ x₂, (letI := softPrims P; c₁.eval n f ρ = some a₁) ∧ (letI := softPrims P; c₂.eval n f ρ = some a₂) ∧
      c₁.eval n (fun u => (book u).value) σ = some x₁ ∧ c₂.eval n (fun u => (book u).value) σ = some x₂ ∧
      a₁.numbers.length = x₁.numbers.length ∧ a₂.numbers.length = x₂.numbers.length ∧
      ∀ (i j : Nat) (A₁ A₂ : Bounded), b₁.numbers[i]? = some A₁ → b₂.numbers[j]? = some A₂ → A₁.ok → A₂.ok → A₁.err + A₂.err < |A₁.value - A₂.value| →
        ∃ u v p q, a₁.numbers[i]? = some u ∧ a₂.numbers[j]? = some v ∧ x₁.numbers[i]? = some p ∧ x₂.numbers[j]? = some q ∧
          A₁.value = p ∧ A₂.value = q ∧ (letI := softPrims P; partialCmp Magnitude t₀ u v = some (compare p q)) := by
  obtain ⟨a₁, x₁, ha₁, hx₁, ra₁, rx₁⟩ := C51_accurate hP t₀ n c₁ f book factors ρ β σ inputs exact run₁
  obtain ⟨a₂, x₂, ha₂, hx₂, ra₂, rx₂⟩ := C51_accurate hP t₀ n c₂ f book factors ρ β σ inputs exact run₂
  have na₁ := rel_numbers ra₁
  have na₂ := rel_numbers ra₂
  have nx₁ := rel_numbers rx₁
  have nx₂ := rel_numbers rx₂
  have get : ∀ {α β : Type} {R : α → β → Prop} {l : List α} {l' : List β} {i : Nat} {v : β}, List.Forall₂ R l l' → l'[i]? = some v →
      ∃ u, l[i]? = some u ∧ R u v := by
    intro α β R l l' i v h e
    obtain ⟨g, e⟩ := List.getElem?_eq_some_iff.1 e
    have g' : i < l.length := by rw [h.length_eq]; exact g
    refine ⟨l[i], List.getElem?_eq_getElem g', ?_⟩
    rw [← e]
    exact List.Forall₂.get h g' g
  refine ⟨a₁, a₂, x₁, x₂, ha₁, ha₂, hx₁, hx₂, na₁.length_eq.trans nx₁.length_eq.symm, na₂.length_eq.trans nx₂.length_eq.symm, ?_⟩
  intro i j A₁ A₂ g₁ g₂ ok₁ ok₂ sep
  obtain ⟨u, hu, eu⟩ := get na₁ g₁
  obtain ⟨v, hv, ev⟩ := get na₂ g₂
  obtain ⟨p, hp, ep⟩ := get nx₁ g₁
  obtain ⟨q, hq, eq⟩ := get nx₂ g₂
  obtain ⟨p', h1, h2⟩ := eu ok₁
  obtain ⟨q', h3, h4⟩ := ev ok₂
  refine ⟨u, v, p, q, hu, hv, hp, hq, ep.symm, eq.symm, ?_⟩
  rw [partialCmp_val P t₀ h1 h3, compare_approx h2 h4 sep, ep, eq]

theorem compare_scale {a b s : ℝ} (hs : 0 < s) : compare (a * s) (b * s) = compare a b := by
  rcases lt_trichotomy a b with h | h | h
  · rw [compare_lt_iff_lt.2 h, compare_lt_iff_lt.2 (mul_lt_mul_of_pos_right h hs)]
  · rw [h, compare_eq_iff_eq.2 rfl, compare_eq_iff_eq.2 rfl]
  · rw [compare_gt_iff_gt.2 h, compare_gt_iff_gt.2 (mul_lt_mul_of_pos_right h hs)]

/-- **C79, comparisons.** Two calculations with results of one type are run, on the same inputs, in a system A and a system B whose base unit `k` is `s k` times
smaller. Wherever the exact numbers differ by more than the errors in the books of A, and also by more than those in the books of B, comparing the two results with
the generated `partial_cmp` (between quantities, or a dimensionless one and a number) gives the same answer in both systems: the order of the exact numbers. -/
theorem C79_comparison {P : PlatformFns} {std : Bool} (hP : P.Ieee std) (t₀ : FloatTy) {ss : List Storage} {n : Nat} {dimOf : U → DimVal E}
    (dimensions : ∀ u, (dimOf u).length = n ∧ (dimOf u).Canonical) {Γ : List (Ty E)} (hΓ : ∀ t ∈ Γ, t.WF n) (c₁ c₂ : Calc E U) (t : Ty E)
    (checks₁ : CalcChecks ss n dimOf (FaithfulCall n) Γ (.inl (c₁, t))) (checks₂ : CalcChecks ss n dimOf (FaithfulCall n) Γ (.inl (c₂, t)))
    (s : List ℝ) (hs : ∀ x ∈ s, 0 < x)
    (fA fB : U → Magnitude) (bookA bookB : U → Bounded) (factorsA : ∀ u, Bounded.HoldsFactor P.lib (fA u) (bookA u))
    (factorsB : ∀ u, Bounded.HoldsFactor P.lib (fB u) (bookB u)) (rebased : ∀ u, (bookB u).value = (bookA u).value * DimVal.scale s (dimOf u))
    (ρA ρB : List (Val Fl Magnitude)) (βA βB : List (Val Bounded Bounded)) (ρ : List (Val ℝ ℝ)) (typed : ArgsHaveTy ρ Γ)
    (inputsA : List.Forall₂ (Val.Rel (Bounded.Holds t₀) (Bounded.HoldsFactor P.lib)) ρA βA)
    (inputsB : List.Forall₂ (Val.Rel (Bounded.Holds t₀) (Bounded.HoldsFactor P.lib)) ρB βB)
    (exactA : List.Forall₂ (Val.Rel (fun r b => r = b.value) (fun r b => r = b.value)) ρ βA)
    (exactB : List.Forall₂ (Val.Rel (fun r b => r = b.value) (fun r b => r = b.value)) (rescaleAll s Γ ρ) βB)
    (bA₁ bA₂ bB₁ bB₂ : Val Bounded Bounded) (runA₁ : letI := bookPrims std t₀; c₁.eval n bookA βA = some bA₁)
    (runA₂ : letI := bookPrims std t₀; c₂.eval n bookA βA = some bA₂) (runB₁ : letI := bookPrims std t₀; c₁.eval n bookB βB = some bB₁)
    (runB₂ : letI := bookPrims std t₀; c₂.eval n bookB βB = some bB₂) :
    ∃ a₁ a₂ b₁ b₂ x₁ x₂,
      (letI := softPrims P; c₁.eval n fA ρA = some a₁) ∧ (letI := softPrims P; c₂.eval n fA ρA = some a₂) ∧
      (letI := softPrims P; c₁.eval n fB ρB = some b₁) ∧ (letI := softPrims P; c₂.eval n fB ρB = some b₂) ∧
      c₁.eval n (fun u => (bookA u).value) ρ = some x₁ ∧ c₂.eval n (fun u => (bookA u).value) ρ = some x₂ ∧
      ∀ (i j : Nat) (A₁ A₂ B₁ B₂ : Bounded), bA₁.numbers[i]? = some A₁ → bA₂.numbers[j]? = some A₂ → bB₁.numbers[i]? = some B₁ → bB₂.numbers[j]? = some B₂ →
        A₁.ok → A₂.ok → B₁.ok → B₂.ok → A₁.err + A₂.err < |A₁.value - A₂.value| → B₁.err + B₂.err < |B₁.value - B₂.value| →
        ∃ u v u' v' p q, a₁.numbers[i]? = some u ∧ a₂.numbers[j]? = some v ∧ b₁.numbers[i]? = some u' ∧ b₂.numbers[j]? = some v' ∧
          x₁.numbers[i]? = some p ∧ x₂.numbers[j]? = some q ∧
          ∀ (ss' : List Storage) (o : OperatorTrait), o ∈ iterNumericTraits ss' → o.name = .partialOrd →
            letI := softPrims P
            o.run t₀.storage t₀.storage (o.lhs.wrap [u] : Val Fl Magnitude) (o.rhs.wrap [v]) = some (.ordering (some (compare p q))) ∧
            o.run t₀.storage t₀.storage (o.lhs.wrap [u'] : Val Fl Magnitude) (o.rhs.wrap [v']) = some (.ordering (some (compare p q))) := by
  have hf : (fun u => (bookB u).value) = fun u => (bookA u).value * DimVal.scale s (dimOf u) := funext rebased
  have key₁ := ((calc_scale (fac := fun u => (bookA u).value) dimensions hΓ hs checks₁).2 ρ typed).2
  have key₂ := ((calc_scale (fac := fun u => (bookA u).value) dimensions hΓ hs checks₂).2 ρ typed).2
  obtain ⟨a₁, a₂, x₁, x₂, ha₁, ha₂, hx₁, hx₂, -, -, hA⟩ := compare_run hP t₀ n c₁ c₂ fA bookA factorsA ρA βA ρ inputsA exactA bA₁ bA₂ runA₁ runA₂
  obtain ⟨b₁, b₂, y₁, y₂, hb₁, hb₂, hy₁, hy₂, -, -, hB⟩ := compare_run hP t₀ n c₁ c₂ fB bookB factorsB ρB βB _ inputsB exactB bB₁ bB₂ runB₁ runB₂
  rw [← hf, hy₁, hx₁, Option.map_some, Option.some.injEq] at key₁
  rw [← hf, hy₂, hx₂, Option.map_some, Option.some.injEq] at key₂
  refine ⟨a₁, a₂, b₁, b₂, x₁, x₂, ha₁, ha₂, hb₁, hb₂, hx₁, hx₂, ?_⟩
  intro i j A₁ A₂ B₁ B₂ gA₁ gA₂ gB₁ gB₂ okA₁ okA₂ okB₁ okB₂ sepA sepB
  obtain ⟨u, v, p, q, hu, hv, hp, hq, -, -, cA⟩ := hA i j A₁ A₂ gA₁ gA₂ okA₁ okA₂ sepA
  obtain ⟨u', v', p', q', hu', hv', hp', hq', -, -, cB⟩ := hB i j B₁ B₂ gB₁ gB₂ okB₁ okB₂ sepB
  refine ⟨u, v, u', v', p, q, hu, hv, hu', hv', hp, hq, ?_⟩
  rw [key₁, Val.rescale, numbers_smul, List.getElem?_map, hp, Option.map_some, Option.some.injEq] at hp'
  rw [key₂, Val.rescale, numbers_smul, List.getElem?_map, hq, Option.map_some, Option.some.injEq] at hq'
  rw [← hp', ← hq', compare_scale (Ty.scale_pos hs t)] at cB
  intro ss' o ho hn
  let := softPrims P
  rw [table_run ho, table_run ho, hn]
  refine ⟨?_, ?_⟩
  · simp [rawOp, storageOut, storage_isFloat, storage_base, OperatorTrait.result, cA]
  · simp [rawOp, storageOut, storage_isFloat, storage_base, OperatorTrait.result, cB]
end

/-! ## An example -/

/-- `q.value_in(kilometers)` for the `k`-th variable. -/
def C79.inKilometersOf (k : Nat) : Calc Int Unit := .call .valueIn [.quantity .f64 [1], .unit [1]] (.cons (.var k) (.cons (.unit ()) .nil))

-- All hypotheses of C79_comparison hold for `(7000 * meters).value_in(kilometers)` and `(7001 * meters).value_in(kilometers)` in a system based on metres and in one
-- based on centimetres, and the numbers are far enough apart: the first is the smaller one in both.
example [IdealFns] (std : Bool) (P : PlatformFns) (hP : P.Ieee std) (o : OperatorTrait) (ho : o ∈ iterNumericTraits [.f64]) (hn : o.name = .partialOrd) :
    ∃ (x y x' y' : Fl),
    (letI := softPrims P; (C79.inKilometersOf 0).eval 1 (fun _ => Magnitude.fromF64 (f64Fmt.ofInt 1000)) [.quantity [f64Fmt.ofInt 7000], .quantity [f64Fmt.ofInt 7001]]
      = some (.bare [x])) ∧
    (letI := softPrims P; (C79.inKilometersOf 1).eval 1 (fun _ => Magnitude.fromF64 (f64Fmt.ofInt 1000)) [.quantity [f64Fmt.ofInt 7000], .quantity [f64Fmt.ofInt 7001]]
      = some (.bare [y])) ∧
    (letI := softPrims P; (C79.inKilometersOf 0).eval 1 (fun _ => Magnitude.fromF64 (f64Fmt.ofInt 100000))
      [.quantity [f64Fmt.ofInt 700000], .quantity [f64Fmt.ofInt 700100]] = some (.bare [x'])) ∧
    (letI := softPrims P; (C79.inKilometersOf 1).eval 1 (fun _ => Magnitude.fromF64 (f64Fmt.ofInt 100000))
      [.quantity [f64Fmt.ofInt 700000], .quantity [f64Fmt.ofInt 700100]] = some (.bare [y'])) ∧
    (letI := softPrims P; o.run .f64 .f64 (o.lhs.wrap [x] : Val Fl Magnitude) (o.rhs.wrap [y]) = some (.ordering (some .lt)) ∧
      o.run .f64 .f64 (o.lhs.wrap [x'] : Val Fl Magnitude) (o.rhs.wrap [y']) = some (.ordering (some .lt))) := by
  have chk : ∀ k, k < 2 → CalcChecks [.f64] 1 (fun _ => [1]) (FaithfulCall 1) [.quantity .f64 [1], .quantity .f64 [1]] (.inl (C79.inKilometersOf k, .bare .f64)) := by
    intro k hk
    refine .call ⟨rfl, by simp, trivial⟩ rfl (.cons (.var ?_) (.cons .unit .nil))
    match k, hk with
    | 0, _ => rfl
    | 1, _ => rfl
  have scale : DimVal.scale [100] ([1] : DimVal Int) = 100 := by simp [DimVal.scale, DimVal.vec, val]
  have book : ∀ v w f : ℝ, ∃ b c : Bounded, (letI := bookPrims std .f64
      (C79.inKilometersOf 0).eval 1 (fun _ => .exactly f) [(.quantity [.exactly v] : Val Bounded Bounded), .quantity [.exactly w]] = some (.bare [b]) ∧
      (C79.inKilometersOf 1).eval 1 (fun _ => .exactly f) [(.quantity [.exactly v] : Val Bounded Bounded), .quantity [.exactly w]] = some (.bare [c])) ∧
      b = (Bounded.div .f64 (.exactly v) ((Bounded.exactly f).only .f64 .f64)).only .f64 .f64 ∧
      c = (Bounded.div .f64 (.exactly w) ((Bounded.exactly f).only .f64 .f64)).only .f64 .f64 := fun v w f => ⟨_, _, ⟨rfl, rfl⟩, rfl, rfl⟩
  obtain ⟨A₁, A₂, ⟨rA₁, rA₂⟩, eA₁, eA₂⟩ := book 7000 7001 1000
  obtain ⟨B₁, B₂, ⟨rB₁, rB₂⟩, eB₁, eB₂⟩ := book 700000 700100 100000
  obtain ⟨a₁, a₂, b₁, b₂, x₁, x₂, h1, h2, h3, h4, hx₁, hx₂, h⟩ := C79_comparison hP .f64 (ss := [.f64]) (n := 1) (dimOf := fun _ => [1])
    (fun _ => ⟨rfl, fun _ _ => trivial⟩)
    (Γ := [.quantity .f64 [1], .quantity .f64 [1]])
    (by intro t ht; simp at ht; subst ht; intro d hd; injection hd with hd; subst hd; exact ⟨rfl, fun _ _ => trivial⟩)
    (C79.inKilometersOf 0) (C79.inKilometersOf 1) (.bare .f64) (chk 0 (by norm_num)) (chk 1 (by norm_num)) [100] (by simp)
    (fun _ => Magnitude.fromF64 (f64Fmt.ofInt 1000))
    (fun _ => Magnitude.fromF64 (f64Fmt.ofInt 100000)) (fun _ => .exactly 1000) (fun _ => .exactly 100000) (fun _ => (C79.factor hP).1)
    (fun _ => (C79.factor hP).2) (fun _ => by rw [scale]; norm_num [Bounded.exactly]) [.quantity [f64Fmt.ofInt 7000], .quantity [f64Fmt.ofInt 7001]]
    [.quantity [f64Fmt.ofInt 700000], .quantity [f64Fmt.ofInt 700100]] [.quantity [.exactly 7000], .quantity [.exactly 7001]]
    [.quantity [.exactly 700000], .quantity [.exactly 700100]] [.quantity [7000], .quantity [7001]] (.cons rfl (.cons rfl .nil))
    (.cons (.cons (fun _ => ⟨7000, by decide +kernel, by simp [Bounded.exactly]⟩) .nil)
      (.cons (.cons (fun _ => ⟨7001, by decide +kernel, by simp [Bounded.exactly]⟩) .nil) .nil))
    (.cons (.cons (fun _ => ⟨700000, by decide +kernel, by simp [Bounded.exactly]⟩) .nil)
      (.cons (.cons (fun _ => ⟨700100, by decide +kernel, by simp [Bounded.exactly]⟩) .nil) .nil))
    (.cons (.cons rfl .nil) (.cons (.cons rfl .nil) .nil))
    (.cons (.cons (by simp only [Ty.scale, scale, Bounded.exactly]; norm_num) .nil)
      (.cons (.cons (by simp only [Ty.scale, scale, Bounded.exactly]; norm_num) .nil) .nil)) _ _ _ _ rA₁ rA₂ rB₁ rB₂
  have run : ∀ (m : Magnitude) (v w : Fl), ∃ x y, (letI := softPrims P; (C79.inKilometersOf 0).eval 1 (fun _ => m) [.quantity [v], .quantity [w]] = some (.bare [x])) ∧
    (letI := softPrims P; (C79.inKilometersOf 1).eval 1 (fun _ => m) [.quantity [v], .quantity [w]] = some (.bare [y])) := fun m v w => ⟨_, _, rfl, rfl⟩
  obtain ⟨x, y, hx, hy⟩ := run (Magnitude.fromF64 (f64Fmt.ofInt 1000)) (f64Fmt.ofInt 7000) (f64Fmt.ofInt 7001)
  obtain ⟨x', y', hx', hy'⟩ := run (Magnitude.fromF64 (f64Fmt.ofInt 100000)) (f64Fmt.ofInt 700000) (f64Fmt.ofInt 700100)
  rw [hx, Option.some.injEq] at h1
  rw [hy, Option.some.injEq] at h2
  rw [hx', Option.some.injEq] at h3
  rw [hy', Option.some.injEq] at h4
  subst h1; subst h2; subst h3; subst h4
  have e₁ : x₁ = .bare [7000 / 1000] := by
    have : some (Val.bare [7000 / 1000]) = some x₁ := hx₁
    exact (Option.some.inj this).symm
  have e₂ : x₂ = .bare [7001 / 1000] := by
    have : some (Val.bare [7001 / 1000]) = some x₂ := hx₂
    exact (Option.some.inj this).symm
  subst e₁; subst e₂
  have hl : (2 : ℝ) ^ (20 : ℤ) ≤ 2 ^ (1023 : ℤ) := zpow_le_zpow_right₀ (by norm_num) (by norm_num)
  have hη : (2 : ℝ) ^ (-1075 : ℤ) ≤ 2 ^ (-60 : ℤ) := zpow_le_zpow_right₀ (by norm_num) (by norm_num)
  have ok : (A₁.ok ∧ A₂.ok ∧ B₁.ok ∧ B₂.ok) ∧ A₁.err + A₂.err < |A₁.value - A₂.value| ∧ B₁.err + B₂.err < |B₁.value - B₂.value| := by
    subst eA₁; subst eA₂; subst eB₁; subst eB₂
    simp only [Bounded.only, Bounded.div, Bounded.rounded, Bounded.exactly, FloatTy.unitRoundoff, FloatTy.underflowUnit, FloatTy.large]
    generalize (2 : ℝ) ^ (-1075 : ℤ) = η at *
    generalize (2 : ℝ) ^ (1023 : ℤ) = L at *
    norm_num [abs_of_pos, abs_of_neg] at hη hl ⊢
    constructorm* _ ∧ _ <;> linarith
  obtain ⟨u, v, u', v', p, q, g1, g2, g3, g4, g5, g6, hc⟩ := h 0 0 A₁ A₂ B₁ B₂ rfl rfl rfl rfl ok.1.1 ok.1.2.1 ok.1.2.2.1 ok.1.2.2.2 ok.2.1 ok.2.2
  simp only [Val.numbers, List.getElem?_cons_zero, Option.some.injEq] at g1 g2 g3 g4 g5 g6
  subst g1; subst g2; subst g3; subst g4; subst g5; subst g6
  have lt : compare (7000 / 1000 : ℝ) (7001 / 1000) = .lt := compare_lt_iff_lt.2 (by norm_num)
  rw [lt] at hc
  exact ⟨_, _, _, _, hx, hy, hx', hy', hc _ o ho hn⟩
end Diman
