import Verif.Proofs.NumTraits
/-!
# C03 A magnitude stores the number it was given

Full statement: for every `f64`, `Magnitude::from_f64(x).into_f64()` is `x`. False of the code: NaN becomes an infinity and
small numbers become zero. The theorems below give the exact set of doubles for which it holds, over all `2^64` bit
patterns, for `powi` as compiled (compiler-rt), for num-traits' `powi` (builds without `std`) and for a correctly rounded `powi`.
-/
namespace Diman

/-- An idealised library: `powi(2.0, e)` is correctly rounded. -/
def exactLib (powi : Fl → Int → Fl) (powf : Fl → Fl → Fl) : FloatLib :=
  ⟨fun a e => if a = f64Fmt.ofInt 2 then .num false (f64Fmt.round (pow2 e)) else powi a e, powf⟩

theorem rtLib_powiTwo (powf) : PowiTwo (rtLib powf) (-1023) := fun _ h1 h2 =>
  powiCompilerRt_two h1 (by omega)

theorem ntLib_powiTwo (powf) : PowiTwo (ntLib powf) (-1074) := fun _ h1 h2 => powiNumTraits_two h1 (by omega)

theorem buildLib_powiTwo (std powf) : PowiTwo (buildLib std powf) (-1023) := by
  cases std
  · exact fun e h1 h2 => ntLib_powiTwo powf e (by omega) h2
  · exact rtLib_powiTwo powf

theorem exactLib_powiTwo (powi powf) (lo) : PowiTwo (exactLib powi powf) lo := fun e _ _ => by
  simp [exactLib]

/-- For every 64-bit pattern that is not a NaN: reading back a stored double returns it if and only if it is a (signed)
zero, or at least `2^-971` in absolute value (infinities included). -/
theorem C03_roundtrip_iff_partial (powf : Fl → Fl → Fl) (bits : BitVec 64) (s : Bool) (n : Nat)
    (hx : f64OfBits bits = .num s n) :
    (integerDecode bits).intoF64 (rtLib powf) = f64OfBits bits ↔ n = 0 ∨ pow2 (-971) ≤ f64Fmt.mag n := by
  have hb : s = decide (2 ^ 63 ≤ bits.toNat) ∧ n = bits.toNat % 2 ^ 63 ∧ n ≤ f64Fmt.infBits := by
    unfold f64OfBits at hx
    simp only at hx
    split at hx
    · cases hx
    · injection hx with h1 h2
      exact ⟨h1.symm, h2.symm, by omega⟩
  rw [hx, integerDecode_fromF64, ← hb.1, ← hb.2.1, mag_ge_iff]
  have hn := hb.2.2
  constructor
  · intro h
    by_contra hc
    have hlt : n / 2 ^ 52 ≤ 51 := by omega
    rw [collapse (rtLib powf) s hn (powiCompilerRt_underflow (by omega) (by omega))] at h
    injection h with _ h
    omega
  · rintro (h | h)
    · subst h
      have hz : (rtLib powf).powi (f64Fmt.ofInt 2) (-1075) = .num false 0 := by
        simp only [rtLib]; exact powiCompilerRt_underflow (by norm_num) (by norm_num)
      exact roundtrip_zero _ s hz (by decide)
    · exact roundtrip_normal _ (rtLib_powiTwo powf) (by norm_num) s hn (by omega) (by omega)

/-- With a correctly rounded `powi` the round trip holds exactly for zeros, infinities and all normal numbers. -/
theorem C03_roundtrip_iff_exact_powi_partial (powi powf) (bits : BitVec 64) (s : Bool) (n : Nat)
    (hx : f64OfBits bits = .num s n) :
    (integerDecode bits).intoF64 (exactLib powi powf) = f64OfBits bits ↔ n = 0 ∨ 2 ^ 52 ≤ n := by
  have hb : s = decide (2 ^ 63 ≤ bits.toNat) ∧ n = bits.toNat % 2 ^ 63 ∧ n ≤ f64Fmt.infBits := by
    unfold f64OfBits at hx
    simp only at hx
    split at hx
    · cases hx
    · injection hx with h1 h2
      exact ⟨h1.symm, h2.symm, by omega⟩
  rw [hx, integerDecode_fromF64, ← hb.1, ← hb.2.1]
  have hn := hb.2.2
  have h1075 : (exactLib powi powf).powi (f64Fmt.ofInt 2) (-1075) = .num false 0 := by
    simp [exactLib, round_pow2_m1075]
  constructor
  · intro h
    by_contra hc
    have hlt : n / 2 ^ 52 = 0 := Nat.div_eq_of_lt (by omega)
    rw [collapse (exactLib powi powf) s hn (by rw [hlt]; exact h1075)] at h
    injection h with _ h
    omega
  · rintro (h | h)
    · subst h
      exact roundtrip_zero _ s h1075 (by decide)
    · exact roundtrip_normal _ (exactLib_powiTwo powi powf (-1074)) (by norm_num) s hn (by omega) (by omega)

/-- Without feature `std` (num-traits' `powi`) the round trip holds exactly for zeros, infinities and all normal numbers; subnormal numbers
are lost. -/
theorem C03_roundtrip_iff_no_std_partial (powf) (bits : BitVec 64) (s : Bool) (n : Nat) (hx : f64OfBits bits = .num s n) :
    (integerDecode bits).intoF64 (ntLib powf) = f64OfBits bits ↔ n = 0 ∨ pow2 (-1022) ≤ f64Fmt.mag n := by
  have hb : s = decide (2 ^ 63 ≤ bits.toNat) ∧ n = bits.toNat % 2 ^ 63 ∧ n ≤ f64Fmt.infBits := by
    unfold f64OfBits at hx
    simp only at hx
    split at hx
    · cases hx
    · injection hx with h1 h2
      exact ⟨h1.symm, h2.symm, by omega⟩
  have hmag : pow2 (-1022) ≤ f64Fmt.mag n ↔ 2 ^ 52 ≤ n := by
    constructor
    · intro h
      by_contra hc
      apply absurd h; apply not_le.2
      unfold Fmt.mag
      rw [if_pos (by rw [f64_p]; omega)]
      calc (n : ℚ) * pow2 f64Fmt.emin < pow2 (52 : Nat) * pow2 f64Fmt.emin := by
            apply mul_lt_mul_of_pos_right _ (pow2_pos _)
            rw [pow2_nat]; exact Nat.cast_lt.2 (by omega)
        _ = pow2 (-1022) := by rw [← pow2_add]; rfl
    · intro h
      have h0 : 1 ≤ n / 2 ^ 52 := by omega
      rw [mag_normal (by omega)]
      calc pow2 (-1022) ≤ pow2 ((52 : Nat) + (((n / 2 ^ 52 : Nat) : Int) - 1075)) := pow2_le.2 (by push_cast; omega)
        _ = pow2 (52 : Nat) * pow2 (((n / 2 ^ 52 : Nat) : Int) - 1075) := by rw [← pow2_add]
        _ ≤ _ := by
          apply mul_le_mul_of_nonneg_right _ (pow2_pos _).le
          rw [pow2_nat]
          exact Nat.cast_le.2 (show 2 ^ 52 ≤ 2 ^ 52 + n % 2 ^ 52 by omega)
  rw [hx, integerDecode_fromF64, ← hb.1, ← hb.2.1, hmag]
  have hn := hb.2.2
  have h1075 : (ntLib powf).powi (f64Fmt.ofInt 2) (-1075) = .num false 0 := powiNumTraits_underflow
  constructor
  · intro h
    by_contra hc
    have hlt : n / 2 ^ 52 = 0 := Nat.div_eq_of_lt (by omega)
    rw [collapse (ntLib powf) s hn (by rw [hlt]; exact h1075)] at h
    injection h with _ h
    omega
  · rintro (h | h)
    · subst h
      exact roundtrip_zero _ s h1075 (by decide)
    · exact roundtrip_normal _ (ntLib_powiTwo powf) (by norm_num) s hn (by omega) (by omega)

/-- What is lost: every non-zero double below `2^-971` in absolute value becomes a zero of the same sign. -/
theorem C03_small_becomes_zero (powf : Fl → Fl → Fl) (s : Bool) (n : Nat)
    (h : f64Fmt.mag n < pow2 (-971)) :
    (Magnitude.fromF64 (.num s n)).intoF64 (rtLib powf) = .num s 0 := by
  have hlt : n < 52 * 2 ^ 52 := by
    by_contra hc; exact absurd ((mag_ge_iff n).2 (by omega)) (not_le.2 h)
  exact collapse (rtLib powf) s (by rw [f64_inf]; omega) (powiCompilerRt_underflow (by omega) (by omega))

/-- What is lost: every NaN bit pattern becomes an infinity. -/
theorem C03_nan_becomes_infinity (std : Bool) (powf : Fl → Fl → Fl) (bits : BitVec 64) (h : f64OfBits bits = .nan) :
    (integerDecode bits).intoF64 (buildLib std powf) = .num (decide (2 ^ 63 ≤ bits.toNat)) f64Fmt.infBits := by
  have hb : f64Fmt.infBits < bits.toNat % 2 ^ 63 := by
    unfold f64OfBits at h
    simp only at h
    split at h
    · assumption
    · cases h
  have h63 : bits.toNat % 2 ^ 63 < 2 ^ 63 := Nat.mod_lt _ (by norm_num)
  rw [integerDecode_fromF64]
  generalize bits.toNat % 2 ^ 63 = n at *
  rw [f64_inf] at hb
  have hd : n / 2 ^ 52 = 2047 := by omega
  have hpw : (buildLib std powf).powi (f64Fmt.ofInt 2) (((n / 2 ^ 52 : Nat) : Int) - 1075) = f64Pow2 972 := by
    rw [hd, show ((2047 : Nat) : Int) - 1075 = 972 by norm_num]
    rw [buildLib_powiTwo std powf _ (by norm_num) (by norm_num)]
    unfold f64Pow2
    rw [round_nat _ (by decide) (mag_pow2 (e := 972) (by norm_num) (by norm_num)) (pow2bits_lt (by norm_num)).le]
  rw [intoF64_fromF64 _ _ h63 hpw (pow2bits_lt (by norm_num)), mag_pow2 (by norm_num) (by norm_num),
    if_neg (by omega)]
  congr 1
  apply round_overflow
  calc pow2 1024 = pow2 (52 : Nat) * pow2 972 := by
        rw [← pow2_add, show ((52 : Nat) : Int) + 972 = 1024 by norm_num]
    _ ≤ _ := by
      apply mul_le_mul_of_nonneg_right _ (pow2_pos _).le
      rw [pow2_nat]
      exact Nat.cast_le.2 (show 2 ^ 52 ≤ 2 ^ 52 + n % 2 ^ 52 by omega)

/-- Whatever survives with `std` survives without. -/
theorem C03_no_std_superset (powf) (bits : BitVec 64) (h : (integerDecode bits).intoF64 (rtLib powf) = f64OfBits bits) :
    (integerDecode bits).intoF64 (ntLib powf) = f64OfBits bits := by
  cases hx : f64OfBits bits with
  | nan =>
    have := C03_nan_becomes_infinity true powf bits hx
    rw [show buildLib true powf = rtLib powf from rfl] at this
    rw [this, hx] at h; cases h
  | num s n =>
    rw [← hx]
    rw [C03_roundtrip_iff_no_std_partial powf bits s n hx]
    refine ((C03_roundtrip_iff_partial powf bits s n hx).1 h).imp id fun h => le_trans (pow2_le.2 (by norm_num)) h

/-- The full statement is false, with and without `std`: there is a non-NaN double that does not survive, and NaNs never do. -/
theorem C03_counterexample (std : Bool) (powf : Fl → Fl → Fl) :
    (∃ bits : BitVec 64, f64OfBits bits ≠ .nan ∧ (integerDecode bits).intoF64 (buildLib std powf) ≠ f64OfBits bits) ∧
    (∀ bits : BitVec 64, f64OfBits bits = .nan → (integerDecode bits).intoF64 (buildLib std powf) ≠ .nan) := by
  refine ⟨⟨1#64, by decide, ?_⟩, fun bits h => ?_⟩
  · have hx : f64OfBits 1#64 = .num false 1 := by decide
    intro h
    cases std with
    | true =>
      have := (C03_roundtrip_iff_partial powf 1#64 false 1 hx).1 h
      rw [mag_ge_iff] at this
      omega
    | false =>
      have h := (C03_roundtrip_iff_no_std_partial powf 1#64 false 1 hx).1 h
      exact absurd h (by decide +kernel)
  · rw [C03_nan_becomes_infinity std powf bits h]; simp

/-- Two different storable doubles are stored as two different magnitudes (so as two different unit types). -/
theorem C03_distinct_stored_distinctly (b₁ b₂ : BitVec 64) (h : integerDecode b₁ = integerDecode b₂) : b₁ = b₂ := by
  rw [integerDecode_eq, integerDecode_eq] at h
  injection h with h1 h2 h3
  have l1 := b₁.isLt; have l2 := b₂.isLt
  apply BitVec.eq_of_toNat_eq
  have hd : b₁.toNat % 2 ^ 63 / 2 ^ 52 = b₂.toNat % 2 ^ 63 / 2 ^ 52 := by omega
  rw [hd] at h1
  have hs : (b₁.toNat < 2 ^ 63) ↔ (b₂.toNat < 2 ^ 63) := by
    split at h3 <;> split at h3 <;> omega
  split at h1 <;> omega

-- non-vacuity: 0.1 and -3 * 2^-971 meet the hypotheses and do survive
example : f64OfBits 0x3fb999999999999a#64 = .num false 4591870180066957722 ∧
    (integerDecode 0x3fb999999999999a#64).intoF64 (rtLib fun _ _ => .nan) = .num false 4591870180066957722 := by
  decide +kernel
-- 2^-1000 survives only without `std`
example : (integerDecode 0x0170000000000000#64).intoF64 (ntLib fun _ _ => .nan) = f64OfBits 0x0170000000000000#64 ∧
    (integerDecode 0x0170000000000000#64).intoF64 (rtLib fun _ _ => .nan) ≠ f64OfBits 0x0170000000000000#64 := by
  decide +kernel

end Diman
