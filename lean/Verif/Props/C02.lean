import Verif.Proofs.Ratio
/-!
# C02 Equal rational exponents are the same exponent

Full statement: any two exponents that denote the same rational compare equal (structurally, `derive(PartialEq)`).
It is false of the code for negative denominators (`C02_negative_denominator_counterexample`): `Ratio::new` divides by
the positive gcd and never moves the sign, and the parser accepts the exponent with numerator `1` and denominator `-2`.
Proved: every computation history whose literals have positive denominators and whose divisors are positive.
-/
namespace Diman

/-- A history of exponent operations: how an exponent came to be. -/
inductive ExpHist where
  /-- literal `n/d` -/
  | lit (n d : Int)
  /-- `Ratio::int(n)` -/
  | int (n : Int)
  | add (a b : ExpHist)
  | sub (a b : ExpHist)
  | neg (a : ExpHist)
  | mul (a b : ExpHist)
  | div (a b : ExpHist)

/-- Running a history on the code's exponents. -/
def ExpHist.run : ExpHist → Option Ratio
  | .lit n d => Ratio.new n d
  | .int n => some (Ratio.int n)
  | .add a b => do (← a.run).add (← b.run)
  | .sub a b => do (← a.run).sub (← b.run)
  | .neg a => do (← a.run).neg
  | .mul a b => do (← a.run).mul (← b.run)
  | .div a b => do (← a.run).div (← b.run)

/-- The same history in `ℚ` (specification). -/
def ExpHist.exact : ExpHist → ℚ
  | .lit n d => (n : ℚ) / d
  | .int n => n
  | .add a b => a.exact + b.exact
  | .sub a b => a.exact - b.exact
  | .neg a => -a.exact
  | .mul a b => a.exact * b.exact
  | .div a b => a.exact / b.exact

/-- Literal denominators and divisors are positive. -/
def ExpHist.Positive : ExpHist → Prop
  | .lit _ d => 0 < d
  | .int _ => True
  | .add a b | .sub a b | .mul a b => a.Positive ∧ b.Positive
  | .neg a => a.Positive
  | .div a b => a.Positive ∧ b.Positive ∧ 0 < b.exact

/-- Every result of a positive history is in lowest terms, has a positive denominator and denotes the exact value. -/
theorem C02_canonical_partial (h : ExpHist) (hp : h.Positive) (r : Ratio) (hr : h.run = some r) :
    r.Canonical ∧ r.val = h.exact := by
  have subc : ∀ {a b r : Ratio}, a.Canonical → b.Canonical → a.sub b = some r →
      r.Canonical ∧ r.val = a.val - b.val := by
    intro a b r ha hb h
    have h := Ratio.sub_some h
    have hb' : Ratio.Canonical ⟨-b.num, b.denom⟩ := ⟨hb.1, by simpa using hb.2⟩
    refine ⟨Ratio.add_canonical ha hb' h, ?_⟩
    rw [Ratio.add_val ha.defined hb'.defined h]
    simp only [Ratio.val]; push_cast; ring
  induction h generalizing r with
  | lit n d => exact ⟨Ratio.new_pos hr hp, Ratio.new_val hr⟩
  | int n =>
    simp only [ExpHist.run, Option.some.injEq] at hr; subst hr
    exact ⟨by simp [Ratio.Canonical, Ratio.int], by simp [Ratio.val, Ratio.int, ExpHist.exact]⟩
  | add a b iha ihb =>
    simp only [ExpHist.run, Option.bind_eq_bind, Option.bind_eq_some_iff] at hr
    obtain ⟨x, hx, y, hy, hr⟩ := hr
    obtain ⟨cx, vx⟩ := iha hp.1 x hx
    obtain ⟨cy, vy⟩ := ihb hp.2 y hy
    exact ⟨Ratio.add_canonical cx cy hr, by
      rw [Ratio.add_val cx.defined cy.defined hr, vx, vy]; rfl⟩
  | sub a b iha ihb =>
    simp only [ExpHist.run, Option.bind_eq_bind, Option.bind_eq_some_iff] at hr
    obtain ⟨x, hx, y, hy, hr⟩ := hr
    obtain ⟨cx, vx⟩ := iha hp.1 x hx
    obtain ⟨cy, vy⟩ := ihb hp.2 y hy
    obtain ⟨h1, h2⟩ := subc cx cy hr
    exact ⟨h1, by rw [h2, vx, vy]; rfl⟩
  | neg a iha =>
    simp only [ExpHist.run, Option.bind_eq_bind, Option.bind_eq_some_iff] at hr
    obtain ⟨x, hx, hr⟩ := hr
    obtain ⟨cx, vx⟩ := iha hp x hx
    exact ⟨Ratio.neg_canonical cx hr, by rw [Ratio.neg_val hr, vx]; rfl⟩
  | mul a b iha ihb =>
    simp only [ExpHist.run, Option.bind_eq_bind, Option.bind_eq_some_iff] at hr
    obtain ⟨x, hx, y, hy, hr⟩ := hr
    obtain ⟨cx, vx⟩ := iha hp.1 x hx
    obtain ⟨cy, vy⟩ := ihb hp.2 y hy
    exact ⟨Ratio.mul_canonical cx cy hr, by rw [Ratio.mul_val hr, vx, vy]; rfl⟩
  | div a b iha ihb =>
    simp only [ExpHist.run, Option.bind_eq_bind, Option.bind_eq_some_iff] at hr
    obtain ⟨x, hx, y, hy, hr⟩ := hr
    obtain ⟨cx, vx⟩ := iha hp.1 x hx
    obtain ⟨cy, vy⟩ := ihb hp.2.1 y hy
    have hpos : 0 < y.val := by rw [vy]; exact hp.2.2
    have hyn : 0 < y.num := by
      unfold Ratio.val at hpos
      have hd : (0 : ℚ) < y.denom := by exact_mod_cast cy.1
      have := mul_pos hpos hd
      rw [div_mul_cancel₀ _ hd.ne'] at this
      exact_mod_cast this
    have cinv : y.inv.Canonical := ⟨hyn, by simpa [Ratio.inv, Int.gcd_comm] using cy.2⟩
    refine ⟨Ratio.mul_canonical cx cinv hr, ?_⟩
    rw [Ratio.mul_val hr, vx]
    have : y.inv.val = (y.val)⁻¹ := by simp [Ratio.val, Ratio.inv]
    rw [this, vy, ← div_eq_mul_inv]; rfl

/-- Two results of positive histories are the same exponent if and only if they denote the same rational. -/
theorem C02_equal_iff_same_rational_partial (h₁ h₂ : ExpHist) (hp₁ : h₁.Positive) (hp₂ : h₂.Positive)
    (r₁ r₂ : Ratio) (hr₁ : h₁.run = some r₁) (hr₂ : h₂.run = some r₂) :
    r₁ = r₂ ↔ h₁.exact = h₂.exact := by
  obtain ⟨c1, v1⟩ := C02_canonical_partial h₁ hp₁ r₁ hr₁
  obtain ⟨c2, v2⟩ := C02_canonical_partial h₂ hp₂ r₂ hr₂
  rw [← v1, ← v2]
  exact ⟨fun h => by rw [h], Ratio.canonical_ext c1 c2⟩

/-- The full statement is false: `1/(-2)` and `-1/2` are the same rational but different exponents. -/
theorem C02_negative_denominator_counterexample :
    ∃ h₁ h₂ : ExpHist, ∃ r₁ r₂ : Ratio, h₁.run = some r₁ ∧ h₂.run = some r₂ ∧
      h₁.exact = h₂.exact ∧ r₁.Defined ∧ r₂.Defined ∧ r₁ ≠ r₂ :=
  ⟨.lit 1 (-2), .lit (-1) 2, ⟨1, -2⟩, ⟨-1, 2⟩, by decide +kernel, by decide +kernel, by
    norm_num [ExpHist.exact], by decide, by decide, by decide⟩

/-- The same mismatch arises without any negative literal denominator, by dividing by a negative exponent. -/
theorem C02_negative_divisor_counterexample :
    ∃ r₁ r₂ : Ratio, (ExpHist.div (.int 1) (.int (-2))).run = some r₁ ∧ (ExpHist.lit (-1) 2).run = some r₂ ∧
      r₁.val = r₂.val ∧ r₁ ≠ r₂ :=
  ⟨⟨1, -2⟩, ⟨-1, 2⟩, by decide +kernel, by decide +kernel, by norm_num [Ratio.val], by decide⟩

/-- `Ratio::powi` does not exponentiate: whatever the exponent, the result denotes the same rational as before … -/
theorem C02_powi (r s : Ratio) (exp : Int) (nonzero : exp ≠ 0) (run : r.powi exp = some s) : s.val = r.val := by
  simp only [Ratio.powi, bind, Option.bind_eq_some_iff, i64, Option.ite_none_right_eq_some, Option.some.injEq] at run
  obtain ⟨n, ⟨_, rfl⟩, d, ⟨_, rfl⟩, h⟩ := run
  have hv := Ratio.new_val h
  rw [hv]
  have he : (exp : ℚ) ≠ 0 := by exact_mod_cast nonzero
  simp only [Ratio.val, Int.cast_mul]
  exact mul_div_mul_right _ _ he

/-- … so that `(1/2)²` is not `1/4`. -/
theorem C02_powi_wrong : ∃ r s : Ratio, r.powi 2 = some s ∧ r.val = 1 / 2 ∧ s.val ≠ r.val ^ 2 :=
  ⟨⟨1, 2⟩, ⟨1, 2⟩, by decide +kernel, by norm_num [Ratio.val], by norm_num [Ratio.val]⟩

-- non-vacuity: 1/2 + 1/3 and 5/6 meet the hypotheses and are equal
example : (ExpHist.add (.lit 1 2) (.lit 2 6)).Positive ∧
    (ExpHist.add (.lit 1 2) (.lit 2 6)).run = some ⟨5, 6⟩ ∧ (ExpHist.lit 10 12).run = some ⟨5, 6⟩ :=
  ⟨by simp [ExpHist.Positive], by decide +kernel, by decide +kernel⟩

end Diman
