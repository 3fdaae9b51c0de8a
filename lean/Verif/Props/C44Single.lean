import Verif.Props.C44
/-!
# C44 for `f32`
Every `f32` is an `f64`, so the detour of the `f32` operators through `f64` loses nothing.
-/
namespace Diman

/-- Every finite `f32` magnitude is an `f64` magnitude. -/
theorem widen_mag {n : Nat} (hn : n < f32Fmt.infBits) :
    ∃ m, f64Fmt.mag m = f32Fmt.mag n ∧ m < f64Fmt.infBits ∧ (n = 0 → m = 0) ∧ (n ≠ 0 → pow2 (-149) ≤ f64Fmt.mag m) := by
  obtain ⟨E, N, hnE, hN, hE⟩ := bits_decompose f32Fmt (by decide) n
  have hmag := mag_compose f32Fmt (by decide) hN.le hE
  rw [← hnE] at hmag
  rcases Nat.eq_zero_or_pos N with rfl | hpos
  · refine ⟨0, ?_, by decide, fun _ => rfl, fun h => ?_⟩
    · rw [hmag, mag_zero]; simp
    · rcases hE with rfl | hE
      · exact absurd hnE (by simpa using h)
      · exact absurd hE (by decide)
  · have hNk := Nat.log2_self_le (n := N) (by omega)
    have hNk' := Nat.lt_log2_self (n := N)
    generalize Nat.log2 N = k at hNk hNk'
    have hp : f32Fmt.p = 24 := rfl
    rw [hp] at hN
    have hk : k < 24 := by
      by_contra hc
      exact absurd (lt_of_lt_of_le hN (le_trans (Nat.pow_le_pow_right (by decide) (not_lt.1 hc)) hNk)) (lt_irrefl _)
    have hE' : E ≤ 253 := by
      by_contra hc
      rw [hnE] at hn
      have h2 : f32Fmt.infBits = 255 * 2 ^ 23 := by decide
      rw [h2, hp] at hn
      have := hE.resolve_left (by omega)
      rw [hp] at this
      have := Nat.mul_le_mul_right (2 ^ 23) (show 254 ≤ E by omega)
      simp only [show 24 - 1 = 23 from rfl] at *
      omega
    -- the normalised significand and its scale
    obtain ⟨S, hS⟩ : ∃ S : Nat, S = E + 873 + k := ⟨_, rfl⟩
    have hs1 : N * 2 ^ (52 - k) < 2 ^ 53 := by
      calc N * 2 ^ (52 - k) < 2 ^ (k + 1) * 2 ^ (52 - k) := Nat.mul_lt_mul_of_pos_right hNk' (by positivity)
        _ = 2 ^ 53 := by rw [← pow_add]; congr 1; omega
    have hs2 : 2 ^ 52 ≤ N * 2 ^ (52 - k) := by
      calc 2 ^ 52 = 2 ^ k * 2 ^ (52 - k) := by rw [← pow_add]; congr 1; omega
        _ ≤ _ := Nat.mul_le_mul_right _ hNk
    have hm := mag_compose f64Fmt (by decide) (E := S) (m := N * 2 ^ (52 - k)) hs1.le (Or.inr hs2)
    have heq : f64Fmt.mag (S * 2 ^ (f64Fmt.p - 1) + N * 2 ^ (52 - k)) = f32Fmt.mag n := by
      rw [hm, hmag]
      push_cast
      rw [mul_assoc, show ((2 : ℚ) ^ (52 - k)) = pow2 ((52 - k : Nat) : Int) by rw [pow2_nat]; push_cast; rfl, ← pow2_add]
      congr 2
      simp only [f32Fmt, f64Fmt]
      omega
    have hn0 : n ≠ 0 := by
      rintro rfl
      have : E * 2 ^ (f32Fmt.p - 1) + N = 0 := hnE.symm
      omega
    refine ⟨_, heq, ?_, fun h => absurd h hn0, fun _ => ?_⟩
    · have h1 : f64Fmt.infBits = 2047 * 2 ^ 52 := by decide
      have h2 : f64Fmt.p - 1 = 52 := rfl
      rw [h1, h2]
      have := Nat.mul_le_mul_right (2 ^ 52) (show S ≤ 1149 by omega)
      omega
    · rw [heq, hmag]
      have h1 : pow2 (-149) ≤ pow2 (f32Fmt.emin + E) := pow2_le.2 (by simp only [f32Fmt]; omega)
      have h2 : (1 : ℚ) ≤ N := by exact_mod_cast hpos
      calc pow2 (-149) ≤ pow2 (f32Fmt.emin + E) := h1
        _ = 1 * pow2 (f32Fmt.emin + E) := (one_mul _).symm
        _ ≤ _ := mul_le_mul_of_nonneg_right h2 (pow2_pos _).le

/-- **C44, f32 in f64.** Conversion from `f32` to `f64` changes no value: numbers keep their value, infinities and signs stay, and converting back returns what was
converted. -/
theorem C44_f32_widens (x : Fl) (hx : f32Fmt.Valid x) :
    f64Fmt.Valid (Fmt.convert f32Fmt f64Fmt x) ∧
    f64Fmt.val (Fmt.convert f32Fmt f64Fmt x) = f32Fmt.val x ∧
    (∀ s, x = .num s f32Fmt.infBits → Fmt.convert f32Fmt f64Fmt x = .num s f64Fmt.infBits) ∧
    Fmt.convert f64Fmt f32Fmt (Fmt.convert f32Fmt f64Fmt x) = x ∧
    (x ≠ .nan → Storable (Fmt.convert f32Fmt f64Fmt x)) := by
  cases x with
  | nan => exact ⟨trivial, rfl, by simp, rfl, fun h => absurd rfl h⟩
  | num s n =>
    have hn : n ≤ f32Fmt.infBits := hx
    rcases lt_or_eq_of_le hn with hlt | rfl
    · obtain ⟨m, hm, hi, h0, h1⟩ := widen_mag hlt
      have hc : Fmt.convert f32Fmt f64Fmt (.num s n) = .num s m := by
        simp only [Fmt.convert, Fmt.isInf, decide_eq_false (not_le.2 hlt), Bool.false_eq_true, if_false]
        rw [← hm, round_mag f64Fmt (by decide) hi.le]
      rw [hc]
      refine ⟨hi.le, ?_, ?_, ?_, fun _ => ⟨hi.le, ?_⟩⟩
      · simp only [Fmt.val, if_neg (not_le.2 hlt), if_neg (not_le.2 hi), hm]
      · intro s' h
        injection h with _ h
        omega
      · simp only [Fmt.convert, Fmt.isInf, decide_eq_false (not_le.2 hi), Bool.false_eq_true, if_false]
        rw [hm, round_mag f32Fmt (by decide) hn]
      · by_cases hz : n = 0
        · exact .inl (h0 hz)
        · exact .inr (le_trans (pow2_le.2 (by norm_num)) (h1 hz))
    · have hc : Fmt.convert f32Fmt f64Fmt (.num s f32Fmt.infBits) = .num s f64Fmt.infBits := by
        simp only [Fmt.convert, Fmt.isInf, le_refl, decide_true, if_true]
      rw [hc]
      refine ⟨le_refl f64Fmt.infBits, ?_, ?_, ?_, fun _ => ⟨le_refl _, .inr (by decide +kernel)⟩⟩
      · simp only [Fmt.val, le_refl, if_true]
      · intro s' h
        injection h with h _
        rw [h]
      · simp only [Fmt.convert, Fmt.isInf, le_refl, decide_true, if_true]

theorem f32_mul_valid (x y : Fl) : f32Fmt.Valid (f32Fmt.mul x y) ∧ f32Fmt.Valid (f32Fmt.div x y) := by
  constructor
  · unfold Fmt.mul
    split
    · split
      · split <;> first | trivial | exact le_refl f32Fmt.infBits
      · split
        · split <;> first | trivial | exact le_refl f32Fmt.infBits
        · exact round_le_inf f32Fmt _
    · trivial
  · unfold Fmt.div
    split
    · split
      · split <;> first | trivial | exact le_refl f32Fmt.infBits
      · split
        · exact Nat.zero_le _
        · split
          · split <;> first | trivial | exact le_refl f32Fmt.infBits
          · exact round_le_inf f32Fmt _
    · trivial

/-- **C44, f32 operators.** A conversion factor times or over an `f32` is what `f32` arithmetic gives for the factor as an `f32`, unless the result is NaN: read back
as an `f32` and as an `f64`, the stored factor is that result. -/
theorem C44_f32_operators (std : Bool) (powf) (m : Magnitude) (y : Fl) :
    (f32Fmt.mul (m.intoF32 (buildLib std powf)) y ≠ .nan →
      (m.mulF32 (buildLib std powf) y).intoF32 (buildLib std powf) = f32Fmt.mul (m.intoF32 (buildLib std powf)) y ∧
      f64Fmt.val ((m.mulF32 (buildLib std powf) y).intoF64 (buildLib std powf)) = f32Fmt.val (f32Fmt.mul (m.intoF32 (buildLib std powf)) y)) ∧
    (f32Fmt.div (m.intoF32 (buildLib std powf)) y ≠ .nan →
      (m.divF32 (buildLib std powf) y).intoF32 (buildLib std powf) = f32Fmt.div (m.intoF32 (buildLib std powf)) y ∧
      f64Fmt.val ((m.divF32 (buildLib std powf) y).intoF64 (buildLib std powf)) = f32Fmt.val (f32Fmt.div (m.intoF32 (buildLib std powf)) y)) := by
  have key : ∀ z, f32Fmt.Valid z → z ≠ .nan →
      (Magnitude.fromF64 (Fmt.convert f32Fmt f64Fmt z)).intoF64 (buildLib std powf) = Fmt.convert f32Fmt f64Fmt z := fun z hz hn =>
    C44_storable_roundtrip std powf _ ((C44_f32_widens z hz).2.2.2.2 hn)
  obtain ⟨v1, v2⟩ := f32_mul_valid (m.intoF32 (buildLib std powf)) y
  constructor <;> intro h
  · have := C44_f32_widens _ v1
    unfold Magnitude.mulF32
    constructor
    · rw [show ∀ x : Magnitude, x.intoF32 (buildLib std powf) = Fmt.convert f64Fmt f32Fmt (x.intoF64 (buildLib std powf)) from fun _ => rfl, key _ v1 h]
      exact this.2.2.2.1
    · rw [key _ v1 h]; exact this.2.1
  · have := C44_f32_widens _ v2
    unfold Magnitude.divF32
    constructor
    · rw [show ∀ x : Magnitude, x.intoF32 (buildLib std powf) = Fmt.convert f64Fmt f32Fmt (x.intoF64 (buildLib std powf)) from fun _ => rfl, key _ v2 h]
      exact this.2.2.2.1
    · rw [key _ v2 h]; exact this.2.1

-- the smallest f32 and infinity
example : f32Fmt.Valid (.num true 1) ∧ f32Fmt.Valid (.num false f32Fmt.infBits) ∧ f32Fmt.val (.num true 1) = some (-pow2 (-149)) := by
  refine ⟨show 1 ≤ f32Fmt.infBits by decide, le_refl f32Fmt.infBits, by decide +kernel⟩

-- the factor 1 times 3 as an f32 is 3, so the hypothesis of `C44_f32_operators` is met
example : f32Fmt.mul ((Magnitude.fromF64 (f64Fmt.ofInt 1)).intoF32 (buildLib false fun _ _ => .nan)) (f32Fmt.ofInt 3) = f32Fmt.ofInt 3 := by
  decide +kernel

end Diman
