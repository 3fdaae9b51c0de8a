import Verif.Props.C03
import Verif.Spec.Float
/-!
# C44 Magnitude products and quotients are the correctly rounded products and quotients
-/
namespace Diman

/-- Storable doubles are read back unchanged. -/
theorem C44_storable_roundtrip (std : Bool) (powf) (x : Fl) (h : Storable x) :
    (Magnitude.fromF64 x).intoF64 (buildLib std powf) = x := by
  cases x with
  | nan => exact h.elim
  | num s n =>
    obtain ⟨hn, h⟩ := h
    have hv : ∀ s' n', Fl.num s n = .num s' n' → n' ≤ f64Fmt.infBits := by
      intro s' n' e; injection e with _ e; exact e ▸ hn
    have hb := f64OfBits_f64Bits (.num s n) hv
    have := (C03_roundtrip_iff_partial powf (f64Bits (.num s n)) s n hb).2 h
    have := show (integerDecode (f64Bits (.num s n))).intoF64 (buildLib std powf) = _ by
      cases std
      · exact C03_no_std_superset powf _ this
      · exact this
    rw [hb] at this; exact this

/-- Combining two conversion factors is exactly `f64` multiplication / division of them. -/
theorem C44_is_f64_arithmetic (std : Bool) (powf) (x y : Fl) (hx : Storable x) (hy : Storable y) :
    (Magnitude.fromF64 x).mul (buildLib std powf) (Magnitude.fromF64 y) = Magnitude.fromF64 (f64Fmt.mul x y) ∧
    (Magnitude.fromF64 x).div (buildLib std powf) (Magnitude.fromF64 y) = Magnitude.fromF64 (f64Fmt.div x y) := by
  unfold Magnitude.mul Magnitude.div
  rw [C44_storable_roundtrip std powf x hx, C44_storable_roundtrip std powf y hy]
  exact ⟨rfl, rfl⟩

/-- `f64` multiplication has relative error at most `2^-53` when the exact product is in the normal range and the result is finite;
likewise division by a non-zero divisor. (`r` is the value of the result, `a`, `b` those of the operands.) -/
theorem C44_relative_error (f : Fmt) (hp : 1 ≤ f.p) (x y : Fl) (a b : ℚ)
    (hx : f.val x = some a) (hy : f.val y = some b) :
    (∀ r, f.val (f.mul x y) = some r → pow2 (f.emin + ((f.p : Int) - 1)) ≤ |a * b| →
      |r - a * b| ≤ pow2 (-(f.p : Int)) * |a * b|) ∧
    (b ≠ 0 → ∀ r, f.val (f.div x y) = some r → pow2 (f.emin + ((f.p : Int) - 1)) ≤ |a / b| →
      |r - a / b| ≤ pow2 (-(f.p : Int)) * |a / b|) := by
  cases x with
  | nan => simp [Fmt.val] at hx
  | num s n =>
  cases y with
  | nan => simp [Fmt.val] at hy
  | num t m =>
  unfold Fmt.val at hx hy
  simp only at hx hy
  split at hx
  · cases hx
  rename_i hn
  split at hy
  · cases hy
  rename_i hm
  replace hx := Option.some.inj hx
  replace hy := Option.some.inj hy
  have hsign : ∀ (s t : Bool) (u v : ℚ), (if s then -u else u) * (if t then -v else v) = if (s != t) then -(u * v) else u * v := by
    intro s t u v; cases s <;> cases t <;> simp
  have hsignd : ∀ (s t : Bool) (u v : ℚ), (if s then -u else u) / (if t then -v else v) = if (s != t) then -(u / v) else u / v := by
    intro s t u v; cases s <;> cases t <;> simp [neg_div, div_neg]
  have habs : ∀ (s : Bool) (u : ℚ), |if s then -u else u| = |u| := by intro s u; cases s <;> simp
  have hdiff : ∀ (s : Bool) (u v : ℚ), |(if s then -u else u) - (if s then -v else v)| = |u - v| := by
    intro s u v; cases s
    · simp
    · simp only [if_true]; rw [← abs_neg]; congr 1; ring
  constructor
  · intro r hr hlow
    rw [mul_num f (not_le.1 hn) (not_le.1 hm)] at hr
    simp only [Fmt.val] at hr
    split at hr
    · cases hr
    rename_i ho
    replace hr := Option.some.inj hr
    rw [← hx, ← hy, hsign] at hlow ⊢
    rw [← hr, hdiff, habs] at *
    rw [abs_of_nonneg (mul_nonneg (mag_nonneg f n) (mag_nonneg f m))] at *
    exact round_rel_err f hp hlow (not_le.1 ho)
  · intro hb r hr hlow
    have hm0 : m ≠ 0 := by
      rintro rfl; apply hb; rw [← hy, mag_zero]; simp
    rw [div_num f (not_le.1 hn) (not_le.1 hm) hm0] at hr
    simp only [Fmt.val] at hr
    split at hr
    · cases hr
    rename_i ho
    replace hr := Option.some.inj hr
    rw [← hx, ← hy, hsignd] at hlow ⊢
    rw [← hr, hdiff, habs] at *
    rw [abs_of_nonneg (div_nonneg (mag_nonneg f n) (mag_nonneg f m))] at *
    exact round_rel_err f hp hlow (not_le.1 ho)

/-- The relative error bound for products and quotients of stored conversion factors, as read back. -/
theorem C44_magnitude_relative_error (std : Bool) (powf) (x y : Fl) (a b r : ℚ) (hx : Storable x) (hy : Storable y)
    (ha : f64Fmt.val x = some a) (hb : f64Fmt.val y = some b) :
    (Storable (f64Fmt.mul x y) → pow2 (-1022) ≤ |a * b| →
      f64Fmt.val (((Magnitude.fromF64 x).mul (buildLib std powf) (Magnitude.fromF64 y)).intoF64 (buildLib std powf)) = some r →
      |r - a * b| ≤ pow2 (-53) * |a * b|) ∧
    (Storable (f64Fmt.div x y) → b ≠ 0 → pow2 (-1022) ≤ |a / b| →
      f64Fmt.val (((Magnitude.fromF64 x).div (buildLib std powf) (Magnitude.fromF64 y)).intoF64 (buildLib std powf)) = some r →
      |r - a / b| ≤ pow2 (-53) * |a / b|) := by
  obtain ⟨e1, e2⟩ := C44_is_f64_arithmetic std powf x y hx hy
  obtain ⟨k1, k2⟩ := C44_relative_error f64Fmt (by decide) x y a b ha hb
  constructor
  · intro hs hlow hr
    rw [e1, C44_storable_roundtrip std powf _ hs] at hr
    exact k1 r hr hlow
  · intro hs hb0 hlow hr
    rw [e2, C44_storable_roundtrip std powf _ hs] at hr
    exact k2 hb0 r hr hlow

/-- Multiplying or dividing a storable conversion factor by one changes nothing, and multiplication commutes. -/
theorem C44_one_neutral (std : Bool) (powf) (x : Fl) (hx : Storable x) :
    (Magnitude.fromF64 x).mul (buildLib std powf) (Magnitude.fromF64 (f64Fmt.ofInt 1)) = Magnitude.fromF64 x ∧
    (Magnitude.fromF64 (f64Fmt.ofInt 1)).mul (buildLib std powf) (Magnitude.fromF64 x) = Magnitude.fromF64 x ∧
    (Magnitude.fromF64 x).div (buildLib std powf) (Magnitude.fromF64 (f64Fmt.ofInt 1)) = Magnitude.fromF64 x := by
  have h1 : Storable (f64Fmt.ofInt 1) := by
    rw [f64_ofInt_one]
    refine ⟨by decide, Or.inr ?_⟩
    rw [mag_ge_iff]; decide
  rw [(C44_is_f64_arithmetic std powf _ _ hx h1).1, (C44_is_f64_arithmetic std powf _ _ h1 hx).1,
    (C44_is_f64_arithmetic std powf _ _ hx h1).2]
  cases x with
  | nan => exact hx.elim
  | num s n =>
    rw [f64_ofInt_one]
    have hone : f64Pow2 0 = .num false (1023 * 2 ^ 52) := rfl
    rw [hone]
    rcases Nat.lt_or_ge n f64Fmt.infBits with hlt | hge
    · rw [mul_num _ hlt (by decide), mul_num _ (by decide) hlt, div_num _ hlt (by decide) (by decide), mag_one,
        mul_one, one_mul, div_one, round_mag _ (by decide) hlt.le]
      cases s <;> simp
    · have : n = f64Fmt.infBits := le_antisymm hx.1 hge
      subst this
      cases s <;> decide

/-- Products of conversion factors do not depend on the order of the factors. -/
theorem C44_mul_comm (std : Bool) (powf) (a b : Magnitude) : a.mul (buildLib std powf) b = b.mul (buildLib std powf) a := by
  unfold Magnitude.mul
  generalize a.intoF64 (buildLib std powf) = x
  generalize b.intoF64 (buildLib std powf) = y
  congr 1
  cases x with
  | nan => cases y <;> rfl
  | num s n =>
    cases y with
    | nan => rfl
    | num t m =>
      have hc : (s != t) = (t != s) := by cases s <;> cases t <;> rfl
      simp only [Fmt.mul, hc, mul_comm (f64Fmt.mag n)]
      by_cases h1 : f64Fmt.isInf n = true <;> by_cases h2 : f64Fmt.isInf m = true <;> simp only [h1, h2, if_true]
      · have hn0 : n ≠ 0 := by rintro rfl; exact absurd h1 (by decide)
        have hm0 : m ≠ 0 := by rintro rfl; exact absurd h2 (by decide)
        simp [hn0, hm0]
      · simp
      · simp
      · simp

/-- The operators between a conversion factor and an `f64` compute with the number that was stored. -/
theorem C44_with_f64 (std : Bool) (powf) (x y : Fl) (hx : Storable x) :
    (Magnitude.fromF64 x).mulF64 (buildLib std powf) y = Magnitude.fromF64 (f64Fmt.mul x y) ∧
    (Magnitude.fromF64 x).divF64 (buildLib std powf) y = Magnitude.fromF64 (f64Fmt.div x y) ∧
    Magnitude.f64Mul (buildLib std powf) y (Magnitude.fromF64 x) = f64Fmt.mul y x ∧
    Magnitude.f64Div (buildLib std powf) y (Magnitude.fromF64 x) = f64Fmt.div y x := by
  unfold Magnitude.mulF64 Magnitude.divF64 Magnitude.f64Mul Magnitude.f64Div
  rw [C44_storable_roundtrip std powf x hx]
  exact ⟨rfl, rfl, rfl, rfl⟩

/-- The operators between a conversion factor and an `f32` compute in `f32` with the stored number rounded to `f32`. -/
theorem C44_with_f32 (std : Bool) (powf) (x y : Fl) (hx : Storable x) :
    (Magnitude.fromF64 x).mulF32 (buildLib std powf) y =
      Magnitude.fromF64 (Fmt.convert f32Fmt f64Fmt (f32Fmt.mul (Fmt.convert f64Fmt f32Fmt x) y)) ∧
    (Magnitude.fromF64 x).divF32 (buildLib std powf) y =
      Magnitude.fromF64 (Fmt.convert f32Fmt f64Fmt (f32Fmt.div (Fmt.convert f64Fmt f32Fmt x) y)) ∧
    Magnitude.f32Mul (buildLib std powf) y (Magnitude.fromF64 x) = f32Fmt.mul y (Fmt.convert f64Fmt f32Fmt x) ∧
    Magnitude.f32Div (buildLib std powf) y (Magnitude.fromF64 x) = f32Fmt.div y (Fmt.convert f64Fmt f32Fmt x) := by
  unfold Magnitude.mulF32 Magnitude.divF32 Magnitude.f32Mul Magnitude.f32Div Magnitude.intoF32
  rw [C44_storable_roundtrip std powf x hx]
  exact ⟨rfl, rfl, rfl, rfl⟩

/-- The results of the operators with an `f64` are within `2^-53` (relative) of the exact ones. -/
theorem C44_with_f64_relative_error (std : Bool) (powf) (x y : Fl) (a b r : ℚ) (hx : Storable x)
    (ha : f64Fmt.val x = some a) (hb : f64Fmt.val y = some b) :
    (Storable (f64Fmt.mul x y) → pow2 (-1022) ≤ |a * b| →
      f64Fmt.val (((Magnitude.fromF64 x).mulF64 (buildLib std powf) y).intoF64 (buildLib std powf)) = some r →
      |r - a * b| ≤ pow2 (-53) * |a * b|) ∧
    (Storable (f64Fmt.div x y) → b ≠ 0 → pow2 (-1022) ≤ |a / b| →
      f64Fmt.val (((Magnitude.fromF64 x).divF64 (buildLib std powf) y).intoF64 (buildLib std powf)) = some r →
      |r - a / b| ≤ pow2 (-53) * |a / b|) ∧
    (pow2 (-1022) ≤ |b * a| → f64Fmt.val (Magnitude.f64Mul (buildLib std powf) y (Magnitude.fromF64 x)) = some r →
      |r - b * a| ≤ pow2 (-53) * |b * a|) ∧
    (a ≠ 0 → pow2 (-1022) ≤ |b / a| → f64Fmt.val (Magnitude.f64Div (buildLib std powf) y (Magnitude.fromF64 x)) = some r →
      |r - b / a| ≤ pow2 (-53) * |b / a|) := by
  obtain ⟨e1, e2, e3, e4⟩ := C44_with_f64 std powf x y hx
  obtain ⟨k1, k2⟩ := C44_relative_error f64Fmt (by decide) x y a b ha hb
  obtain ⟨k3, k4⟩ := C44_relative_error f64Fmt (by decide) y x b a hb ha
  refine ⟨?_, ?_, ?_, ?_⟩
  · intro hs hlow hr
    rw [e1, C44_storable_roundtrip std powf _ hs] at hr
    exact k1 r hr hlow
  · intro hs hb0 hlow hr
    rw [e2, C44_storable_roundtrip std powf _ hs] at hr
    exact k2 hb0 r hr hlow
  · intro hlow hr
    rw [e3] at hr
    exact k3 r hr hlow
  · intro ha0 hlow hr
    rw [e4] at hr
    exact k4 ha0 r hr hlow

-- non-vacuity: 3 and 0.1 are storable doubles in the normal range; their stored product is 0.30000000000000004
example : Storable (f64Fmt.ofInt 3) ∧ Storable (.num false 4591870180066957722) ∧
    (Magnitude.fromF64 (f64Fmt.ofInt 3)).mul (buildLib false fun _ _ => .nan) (Magnitude.fromF64 (.num false 4591870180066957722))
      = Magnitude.fromF64 (.num false 4599075939470750516) := by
  refine ⟨⟨by decide +kernel, Or.inr (by decide +kernel)⟩, ⟨by decide +kernel, Or.inr (by decide +kernel)⟩, by decide +kernel⟩

end Diman
