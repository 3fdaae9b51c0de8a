import Verif.Proofs.Ratio
/-!
# C01 Rational exponent arithmetic is exact or refused

Full statement: whenever an operation on two exponents returns, the result denotes the exact rational; overflow and
division by zero are refused. Division by zero is *not* refused by the code (`C01_div_by_zero_not_refused`), so the
exactness theorem for `div` needs a non-zero divisor and carries `_partial`.
-/
namespace Diman

/-- Exactness of `+`, `-`, unary `-`, `*` for all exponents with non-zero denominators: whatever is returned denotes a
rational number, namely the right one. -/
theorem C01_exact (a b r : Ratio) (ha : a.Defined) (hb : b.Defined) :
    (a.add b = some r → r.Defined ∧ r.val = a.val + b.val) ∧
    (a.sub b = some r → r.Defined ∧ r.val = a.val - b.val) ∧
    (a.neg = some r → r.Defined ∧ r.val = -a.val) ∧
    (a.mul b = some r → r.Defined ∧ r.val = a.val * b.val) := by
  refine ⟨fun h => ⟨Ratio.add_defined ha hb h, Ratio.add_val ha hb h⟩, fun h => ?_, fun h => ?_,
    fun h => ⟨Ratio.mul_defined ha hb h, Ratio.mul_val h⟩⟩
  · have h := Ratio.sub_some h
    have hb' : Ratio.Defined ⟨-b.num, b.denom⟩ := hb
    refine ⟨Ratio.add_defined ha hb' h, ?_⟩
    rw [Ratio.add_val ha hb' h]
    simp only [Ratio.val]; push_cast; ring
  · refine ⟨?_, Ratio.neg_val h⟩
    rw [(Ratio.neg_some h).1]; exact ha

/-- Exactness of division by a non-zero exponent. Missing for the full property: refusal of a zero divisor. -/
theorem C01_div_exact_partial (a b r : Ratio) (ha : a.Defined) (hb0 : b.val ≠ 0)
    (h : a.div b = some r) : r.Defined ∧ r.val = a.val / b.val := by
  have hn : b.num ≠ 0 := by
    intro hn; apply hb0; simp [Ratio.val, hn]
  refine ⟨Ratio.mul_defined ha (b := b.inv) hn h, ?_⟩
  rw [Ratio.mul_val h, div_eq_mul_inv]
  congr 1
  simp [Ratio.val, Ratio.inv]

/-- Reading the literal `n/d` (`Ratio::new`) is exact and gives lowest terms. -/
theorem C01_new_exact (n d : Int) (r : Ratio) (hd : d ≠ 0) (h : Ratio.new n d = some r) :
    r.Defined ∧ r.val = (n : ℚ) / (d : ℚ) ∧ Int.gcd r.num r.denom = 1 :=
  ⟨Ratio.new_defined h hd, Ratio.new_val h, (Ratio.new_some h).2.2.2.1⟩

/-- An intermediate outside `i64` is always refused, never wrapped. -/
theorem C01_overflow_refused (a b : Ratio) :
    (¬ (IsI64 (a.num * b.denom) ∧ IsI64 (b.num * a.denom) ∧
        IsI64 (a.num * b.denom + b.num * a.denom) ∧ IsI64 (a.denom * b.denom)) → a.add b = none) ∧
    (¬ (IsI64 (a.num * b.num) ∧ IsI64 (a.denom * b.denom)) → a.mul b = none) ∧
    (¬ (IsI64 (a.num * b.denom) ∧ IsI64 (a.denom * b.num)) → a.div b = none) ∧
    (¬ IsI64 (-a.num) → a.neg = none) ∧
    (¬ IsI64 (-b.num) → a.sub b = none) := by
  have hmul : ∀ a b : Ratio, ¬ (IsI64 (a.num * b.num) ∧ IsI64 (a.denom * b.denom)) → a.mul b = none := by
    intro a b h
    by_contra hc
    obtain ⟨r, hr⟩ := Option.ne_none_iff_exists'.1 hc
    unfold Ratio.mul at hr
    simp only [Option.bind_eq_bind, Option.bind_eq_some_iff] at hr
    obtain ⟨n, hn, d, hd, -⟩ := hr
    exact h ⟨(i64_some hn).2, (i64_some hd).2⟩
  refine ⟨?_, hmul a b, hmul a b.inv, ?_, ?_⟩
  · intro h
    by_contra hc
    obtain ⟨r, hr⟩ := Option.ne_none_iff_exists'.1 hc
    unfold Ratio.add at hr
    simp only [Option.bind_eq_bind, Option.bind_eq_some_iff] at hr
    obtain ⟨x, hx, y, hy, n, hn, d, hd, -⟩ := hr
    have e1 := i64_some hx; have e2 := i64_some hy
    rw [e1.1, e2.1] at hn
    exact h ⟨e1.2, e2.2, (i64_some hn).2, (i64_some hd).2⟩
  · intro h; simp [Ratio.neg, i64_none h]
  · intro h; simp [Ratio.sub, Ratio.neg, i64_none h]

/-- Nothing that fits is refused: if every intermediate fits in `i64` with its absolute value, the operations return. -/
theorem C01_no_false_refusal (a b : Ratio) (ha : a.Defined) (hb : b.Defined) :
    (FitsAbs (a.num * b.denom) → FitsAbs (b.num * a.denom) →
      FitsAbs (a.num * b.denom + b.num * a.denom) → FitsAbs (a.denom * b.denom) → ∃ r, a.add b = some r) ∧
    (FitsAbs (a.num * b.num) → FitsAbs (a.denom * b.denom) → ∃ r, a.mul b = some r) ∧
    (FitsAbs (a.num * b.denom) → FitsAbs (a.denom * b.num) → b.num ≠ 0 → ∃ r, a.div b = some r) ∧
    (FitsAbs a.num → ∃ r, a.neg = some r) := by
  refine ⟨fun h1 h2 h3 h4 => ?_, fun h1 h2 => ?_, fun h1 h2 hn => ?_, fun h1 => ?_⟩
  · obtain ⟨r, hr⟩ := Ratio.new_isSome h3 h4 (Or.inr (mul_ne_zero ha hb))
    exact ⟨r, by simp [Ratio.add, i64_of h1.isI64, i64_of h2.isI64, i64_of h3.isI64, i64_of h4.isI64, hr]⟩
  · obtain ⟨r, hr⟩ := Ratio.new_isSome h1 h2 (Or.inr (mul_ne_zero ha hb))
    exact ⟨r, by simp [Ratio.mul, i64_of h1.isI64, i64_of h2.isI64, hr]⟩
  · obtain ⟨r, hr⟩ := Ratio.new_isSome h1 h2 (Or.inr (mul_ne_zero ha hn))
    exact ⟨r, by simp [Ratio.div, Ratio.mul, Ratio.inv, i64_of h1.isI64, i64_of h2.isI64, hr]⟩
  · have : FitsAbs (-a.num) := by unfold FitsAbs at *; omega
    exact ⟨⟨-a.num, a.denom⟩, by simp [Ratio.neg, i64_of this.isI64]⟩

/-- The finding: dividing by the exponent zero is not refused, it yields an exponent with denominator zero. -/
theorem C01_div_by_zero_not_refused :
    ∃ a b r : Ratio, a.Defined ∧ b.Defined ∧ b.val = 0 ∧ a.div b = some r ∧ ¬ r.Defined :=
  ⟨⟨1, 1⟩, ⟨0, 1⟩, ⟨1, 0⟩, by decide, by decide, by simp [Ratio.val], by decide +kernel, by decide⟩

/-- Likewise the literal exponent `n/0` is accepted for every non-zero `n` that fits. -/
theorem C01_literal_zero_denominator_accepted (n : Int) (hn : n ≠ 0) (hf : FitsAbs n) :
    ∃ r, Ratio.new n 0 = some r ∧ ¬ r.Defined := by
  obtain ⟨r, hr⟩ := Ratio.new_isSome hf (d := 0) (by decide) (Or.inl hn)
  refine ⟨r, hr, ?_⟩
  obtain ⟨h0, _, h2, _⟩ := Ratio.new_some hr
  intro hd; apply hd
  rcases Int.mul_eq_zero.1 h2.symm with h | h
  · exact h
  · omega

-- non-vacuity: 1/2 + -5/6 = -1/3, 1/2 * 4/3 = 2/3, (1/2)/(3/4) = 2/3; and a refused overflow
example : Ratio.add ⟨1, 2⟩ ⟨-5, 6⟩ = some ⟨-1, 3⟩ := by decide +kernel
example : Ratio.mul ⟨1, 2⟩ ⟨4, 3⟩ = some ⟨2, 3⟩ := by decide +kernel
example : Ratio.div ⟨1, 2⟩ ⟨3, 4⟩ = some ⟨2, 3⟩ := by decide +kernel
example : Ratio.sub ⟨1, 2⟩ ⟨3, 4⟩ = some ⟨-1, 4⟩ := by decide +kernel
example : Ratio.mul ⟨i64Max, 1⟩ ⟨2, 1⟩ = none := by decide +kernel

end Diman
