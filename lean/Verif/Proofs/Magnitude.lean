import Verif.Model.Magnitude
import Verif.Proofs.Float
/-! Lemmas about `Magnitude`: decoding, powers of two, the round trip. -/
namespace Diman

theorem f64_p : f64Fmt.p = 53 := rfl
theorem f64_inf : f64Fmt.infBits = 2047 * 2 ^ 52 := rfl

/-- What `integer_decode_f64` computes, arithmetically. -/
theorem integerDecode_eq (bits : BitVec 64) :
    integerDecode bits =
      { mantissa := if bits.toNat % 2 ^ 63 / 2 ^ 52 = 0 then 2 * (bits.toNat % 2 ^ 52)
                    else 2 ^ 52 + bits.toNat % 2 ^ 52
        exponent := ((bits.toNat % 2 ^ 63 / 2 ^ 52 : Nat) : Int) - 1075
        sign := if bits.toNat < 2 ^ 63 then 1 else -1 } := by
  have hb := bits.isLt
  have e1 : (bits >>> 63 = 0#64) ↔ bits.toNat < 2 ^ 63 := by
    rw [BitVec.toNat_eq]; simp only [BitVec.toNat_ushiftRight, BitVec.toNat_ofNat, Nat.shiftRight_eq_div_pow]
    omega
  have e2 : ((bits >>> 52) &&& 0x7ff#64).toNat = bits.toNat % 2 ^ 63 / 2 ^ 52 := by
    rw [BitVec.toNat_and]
    simp only [BitVec.toNat_ushiftRight, BitVec.toNat_ofNat, Nat.shiftRight_eq_div_pow]
    rw [show 0x7ff % 2 ^ 64 = 2 ^ 11 - 1 by norm_num, Nat.and_two_pow_sub_one_eq_mod]
    omega
  have e3 : (bits &&& 0xfffffffffffff#64).toNat = bits.toNat % 2 ^ 52 := by
    rw [BitVec.toNat_and]
    simp only [BitVec.toNat_ofNat]
    rw [show 0xfffffffffffff % 2 ^ 64 = 2 ^ 52 - 1 by norm_num, Nat.and_two_pow_sub_one_eq_mod]
  have e4 : ((bits >>> 52) &&& 0x7ff#64 = 0#64) ↔ bits.toNat % 2 ^ 63 / 2 ^ 52 = 0 := by
    rw [BitVec.toNat_eq, e2]; rfl
  have e5 : ((bits &&& 0xfffffffffffff#64) <<< 1).toNat = 2 * (bits.toNat % 2 ^ 52) := by
    rw [BitVec.toNat_shiftLeft, e3, Nat.shiftLeft_eq]; omega
  have e6 : ((bits &&& 0xfffffffffffff#64) ||| 0x10000000000000#64).toNat = 2 ^ 52 + bits.toNat % 2 ^ 52 := by
    rw [BitVec.toNat_or, e3, Nat.or_comm]
    simp only [BitVec.toNat_ofNat]
    rw [show 0x10000000000000 % 2 ^ 64 = 2 ^ 52 by norm_num]
    have := Nat.two_pow_add_eq_or_of_lt (i := 52) (Nat.mod_lt bits.toNat (show 0 < 2 ^ 52 by norm_num)) 1
    rw [mul_one] at this; exact this.symm
  unfold integerDecode
  simp only [e2]
  congr 1
  · split
    · rename_i h; rw [if_pos (e4.1 h), e5]
    · rename_i h; rw [if_neg (fun h' => h (e4.2 h')), e6]
  · split
    · rename_i h; rw [if_pos (e1.1 h)]
    · rename_i h; rw [if_neg (fun h' => h (e1.2 h'))]

theorem f64Bits_num (s : Bool) {n : Nat} (hn : n < 2 ^ 63) :
    (f64Bits (.num s n)).toNat = (if s then 2 ^ 63 else 0) + n := by
  unfold f64Bits
  rw [BitVec.toNat_or, BitVec.toNat_ofNat, Nat.mod_eq_of_lt (by omega)]
  cases s
  · simp
  · simp only [if_true]
    rw [show (0x8000000000000000#64).toNat = 2 ^ 63 by rfl]
    have := Nat.two_pow_add_eq_or_of_lt (i := 63) hn 1
    rw [mul_one] at this; exact this.symm

theorem fromF64_num (s : Bool) {n : Nat} (hn : n < 2 ^ 63) :
    Magnitude.fromF64 (.num s n) =
      { mantissa := if n / 2 ^ 52 = 0 then 2 * (n % 2 ^ 52) else 2 ^ 52 + n % 2 ^ 52
        exponent := ((n / 2 ^ 52 : Nat) : Int) - 1075
        sign := if s then -1 else 1 } := by
  unfold Magnitude.fromF64
  rw [integerDecode_eq, f64Bits_num s hn]
  cases s
  · simp only [Bool.false_eq_true, if_false, Nat.zero_add, Nat.mod_eq_of_lt hn, if_pos hn]
  · simp only [if_true]
    rw [show (2 ^ 63 + n) % 2 ^ 63 = n by omega, show (2 ^ 63 + n) % 2 ^ 52 = n % 2 ^ 52 by omega,
      if_neg (show ¬ (2 ^ 63 + n < 2 ^ 63) by omega)]

theorem infBits_lt : f64Fmt.infBits < 2 ^ 63 := by decide

/-- `f64::to_bits` followed by `from_bits` is the identity on values. -/
theorem f64OfBits_f64Bits (x : Fl) (hx : ∀ s n, x = .num s n → n ≤ f64Fmt.infBits) :
    f64OfBits (f64Bits x) = x := by
  cases x with
  | nan => decide
  | num s n =>
    have h := hx s n rfl
    have h63 : n < 2 ^ 63 := lt_of_le_of_lt h infBits_lt
    unfold f64OfBits
    rw [f64Bits_num s h63]
    cases s
    · simp only [Bool.false_eq_true, if_false, Nat.zero_add, Nat.mod_eq_of_lt h63]
      rw [if_neg (by omega)]; congr 1; simp; omega
    · simp only [if_true]
      rw [show (2 ^ 63 + n) % 2 ^ 63 = n by omega, if_neg (by omega)]
      congr 1; simp

/-- Bits of `2^e` for normal `e`. -/
theorem mag_pow2 {e : Int} (h1 : -1022 ≤ e) (h2 : e ≤ 1024) :
    f64Fmt.mag ((e + 1023).toNat * 2 ^ 52) = pow2 e := by
  obtain ⟨k, hk⟩ : ∃ k : Nat, e + 1023 = (k : Int) + 1 := ⟨(e + 1022).toNat, by omega⟩
  have := mag_compose f64Fmt (by decide) (E := k) (m := 2 ^ 52) (by decide) (Or.inr (by decide))
  have hb : (e + 1023).toNat * 2 ^ 52 = k * 2 ^ (f64Fmt.p - 1) + 2 ^ 52 := by
    rw [f64_p]; omega
  rw [hb, this]
  clear this hb
  rw [← pow2_nat, ← pow2_add]
  apply congrArg
  simp only [f64Fmt]; omega

/-- The double `2^e`. -/
def f64Pow2 (e : Int) : Fl := .num false ((e + 1023).toNat * 2 ^ 52)

theorem pow2bits_lt {e : Int} (h2 : e ≤ 1023) : (e + 1023).toNat * 2 ^ 52 < f64Fmt.infBits := by
  rw [f64_inf]; apply Nat.mul_lt_mul_of_pos_right _ (by positivity); omega

theorem mul_pow2 {i j : Int} (hi : -1022 ≤ i) (hi' : i ≤ 1023) (hj : -1022 ≤ j) (hj' : j ≤ 1023)
    (h : -1022 ≤ i + j) (h' : i + j ≤ 1024) :
    f64Fmt.mul (f64Pow2 i) (f64Pow2 j) = f64Pow2 (i + j) := by
  unfold f64Pow2
  rw [mul_num _ (pow2bits_lt hi') (pow2bits_lt hj'), mag_pow2 hi (by omega), mag_pow2 hj (by omega), ← pow2_add]
  congr 1
  apply round_nat _ (by decide) (mag_pow2 h h')
  rw [f64_inf]; apply Nat.mul_le_mul_right; omega

/-- A small integer is represented exactly. -/
theorem mag_round_nat {m : Nat} (hm : m ≤ 2 ^ 53) : f64Fmt.mag (f64Fmt.round m) = m ∧ f64Fmt.round m < f64Fmt.infBits := by
  rcases Nat.eq_zero_or_pos m with rfl | hpos
  · simp [round_zero, mag_zero]; decide
  -- write m = m' * 2^k, with bits E*2^52 + m'
  have hl1 : m.log2 ≤ 53 := by
    rw [Nat.log2_eq_log_two]
    calc Nat.log 2 m ≤ Nat.log 2 (2 ^ 53) := Nat.log_mono_right hm
      _ = 53 := Nat.log_pow (by norm_num) 53
  rcases Nat.lt_or_ge m (2 ^ 53) with hlt | hge
  · -- m * 2^(52 - log2 m) * 2^(log2 m - 52)
    have hl : m.log2 ≤ 52 := by
      have := (Nat.log2_lt (by omega)).2 hlt; omega
    set k := 52 - m.log2 with hk
    have b1 := Nat.log2_self_le (show m ≠ 0 by omega)
    have b2 : m < 2 ^ (m.log2 + 1) := Nat.lt_log2_self
    have e52 : 2 ^ m.log2 * 2 ^ k = 2 ^ 52 := by rw [← pow_add]; congr 1; omega
    have e53 : 2 ^ (m.log2 + 1) * 2 ^ k = 2 ^ 53 := by rw [← pow_add]; congr 1; omega
    have c1 : 2 ^ 52 ≤ m * 2 ^ k := by rw [← e52]; exact Nat.mul_le_mul_right _ b1
    have c2 : m * 2 ^ k ≤ 2 ^ 53 := by rw [← e53]; exact Nat.mul_le_mul_right _ b2.le
    have := mag_compose f64Fmt (by decide) (E := 1074 - k) (m := m * 2 ^ k) c2 (Or.inr c1)
    have hval : ((m * 2 ^ k : Nat) : ℚ) * pow2 (f64Fmt.emin + ((1074 - k : Nat) : Int)) = m := by
      push_cast
      rw [show (2 : ℚ) ^ k = pow2 k by rw [pow2_nat]; push_cast; rfl, mul_assoc, ← pow2_add]
      rw [show (k : Int) + (f64Fmt.emin + ((1074 - k : Nat) : Int)) = 0 by simp only [f64Fmt]; omega, pow2_zero, mul_one]
    rw [hval] at this
    have hle : (1074 - k) * 2 ^ (f64Fmt.p - 1) + m * 2 ^ k < f64Fmt.infBits := by
      rw [f64_inf, f64_p]; norm_num at c2 ⊢; omega
    rw [round_nat _ (by decide) this hle.le]
    exact ⟨this, hle⟩
  · have : m = 2 ^ 53 := by omega
    subst this
    have h1 : f64Fmt.mag (((53 : Int) + 1023).toNat * 2 ^ 52) = pow2 53 := mag_pow2 (by norm_num) (by norm_num)
    have h2 : pow2 53 = ((2 ^ 53 : Nat) : ℚ) := by rw [← pow2_nat]; rfl
    rw [h2] at h1
    have h3 := pow2bits_lt (e := 53) (by norm_num)
    rw [round_nat _ (by decide) h1 h3.le]
    exact ⟨h1, h3⟩

theorem f64_ofInt_one : f64Fmt.ofInt 1 = f64Pow2 0 := by decide +kernel
theorem f64_ofInt_neg_one : f64Fmt.ofInt (-1) = .num true (1023 * 2 ^ 52) := by decide +kernel
theorem f64_ofInt_two : f64Fmt.ofInt 2 = f64Pow2 1 := by decide +kernel

theorem mag_one : f64Fmt.mag (1023 * 2 ^ 52) = 1 := by
  have := mag_pow2 (e := 0) (by norm_num) (by norm_num)
  simpa [pow2_zero] using this

/-- `sign * mantissa` is computed exactly. -/
theorem sign_mul_mantissa (s : Bool) {m : Nat} (hm : m ≤ 2 ^ 53) :
    f64Fmt.mul (f64Fmt.ofInt (if s then -1 else 1)) (f64Fmt.ofInt (m : Int)) = .num s (f64Fmt.round m) := by
  obtain ⟨h1, h2⟩ := mag_round_nat hm
  have hone : f64Fmt.ofInt (if s then -1 else 1) = .num s (1023 * 2 ^ 52) := by
    cases s
    · simp only [Bool.false_eq_true, if_false]; rw [f64_ofInt_one]; rfl
    · simp only [if_true]; exact f64_ofInt_neg_one
  have hm' : f64Fmt.ofInt (m : Int) = .num false (f64Fmt.round m) := by
    simp [Fmt.ofInt]
  rw [hone, hm', mul_num _ (by decide) h2, mag_one, one_mul, h1]
  simp

/-- `powi` of two is correctly rounded from exponent `lo` up to 972. -/
def PowiTwo (lib : FloatLib) (lo : Int) : Prop :=
  ∀ e : Int, lo ≤ e → e ≤ 972 → lib.powi (f64Fmt.ofInt 2) e = .num false (f64Fmt.round (pow2 e))

/-- `into_f64` of a decoded finite or infinite double. -/
theorem intoF64_fromF64 (lib : FloatLib) (s : Bool) {n : Nat} (h63 : n < 2 ^ 63) {k : Nat}
    (hk : lib.powi (f64Fmt.ofInt 2) (((n / 2 ^ 52 : Nat) : Int) - 1075) = .num false k) (hkf : k < f64Fmt.infBits) :
    (Magnitude.fromF64 (.num s n)).intoF64 lib =
      .num s (f64Fmt.round
        (((if n / 2 ^ 52 = 0 then 2 * (n % 2 ^ 52) else 2 ^ 52 + n % 2 ^ 52 : Nat) : ℚ) * f64Fmt.mag k)) := by
  rw [fromF64_num s h63]
  unfold Magnitude.intoF64
  simp only
  have hM : (if n / 2 ^ 52 = 0 then 2 * (n % 2 ^ 52) else 2 ^ 52 + n % 2 ^ 52) ≤ 2 ^ 53 := by
    have := Nat.mod_lt n (show 0 < 2 ^ 52 by positivity)
    split <;> omega
  obtain ⟨h1, h2⟩ := mag_round_nat hM
  rw [sign_mul_mantissa s hM, hk, mul_num _ h2 hkf, h1]
  simp

/-- The decoded value of normal bits. -/
theorem mag_normal {n : Nat} (h : n / 2 ^ 52 ≠ 0) :
    f64Fmt.mag n = ((2 ^ 52 + n % 2 ^ 52 : Nat) : ℚ) * pow2 (((n / 2 ^ 52 : Nat) : Int) - 1075) := by
  unfold Fmt.mag
  have : ¬ n < 2 ^ (f64Fmt.p - 1) := by
    rw [f64_p]; intro hc; exact h (Nat.div_eq_of_lt hc)
  rw [if_neg this, f64_p]
  rw [show 53 - 1 = 52 by rfl, Nat.add_comm]
  congr 2
  simp only [f64Fmt]; omega

/-- Round trip for normal numbers and infinities whose exponent `powi` handles. -/
theorem roundtrip_normal (lib : FloatLib) {lo : Int} (hl : PowiTwo lib lo) (hlo : -1074 ≤ lo) (s : Bool) {n : Nat} (hn : n ≤ f64Fmt.infBits)
    (hb : n / 2 ^ 52 ≠ 0) (hlo' : lo ≤ ((n / 2 ^ 52 : Nat) : Int) - 1075) :
    (Magnitude.fromF64 (.num s n)).intoF64 lib = .num s n := by
  have hb2 : n / 2 ^ 52 ≤ 2047 := by
    have := Nat.div_le_div_right (c := 2 ^ 52) hn
    rw [f64_inf, Nat.mul_div_cancel _ (by positivity)] at this; exact this
  have hpw := hl _ hlo' (by omega)
  set e : Int := ((n / 2 ^ 52 : Nat) : Int) - 1075 with he
  -- 2^e is representable
  have hrep : f64Fmt.mag (f64Fmt.round (pow2 e)) = pow2 e ∧ f64Fmt.round (pow2 e) < f64Fmt.infBits := by
    rcases lt_or_ge e (-1022) with h | h
    · -- subnormal power of two: bits 2^(e+1074)
      obtain ⟨k, hk⟩ := Int.eq_ofNat_of_zero_le (show 0 ≤ e + 1074 by omega)
      have hk51 : k ≤ 51 := by omega
      have hle : 2 ^ k ≤ 2 ^ 51 := Nat.pow_le_pow_right (by norm_num) hk51
      have := mag_compose f64Fmt (by decide) (E := 0) (m := 2 ^ k) (by rw [f64_p]; omega) (Or.inl rfl)
      simp only [Nat.zero_mul, Nat.zero_add] at this
      rw [← pow2_nat, ← pow2_add, show (k : Int) + (f64Fmt.emin + ((0 : Nat) : Int)) = e by
        simp only [f64Fmt]; omega] at this
      have hlt : 2 ^ k < f64Fmt.infBits := by rw [f64_inf]; omega
      rw [round_nat _ (by decide) this hlt.le]; exact ⟨this, hlt⟩
    · have := mag_pow2 (e := e) h (by omega)
      have hlt := pow2bits_lt (e := e) (by omega)
      rw [round_nat _ (by decide) this hlt.le]; exact ⟨this, hlt⟩
  rw [intoF64_fromF64 lib s (lt_of_le_of_lt hn infBits_lt) hpw hrep.2, if_neg hb, hrep.1, ← mag_normal hb, round_mag _ (by decide) hn]

/-- Zero round-trips as soon as `powi` is finite there. -/
theorem roundtrip_zero (lib : FloatLib) (s : Bool) {k : Nat}
    (hk : lib.powi (f64Fmt.ofInt 2) (-1075) = .num false k) (hkf : k < f64Fmt.infBits) :
    (Magnitude.fromF64 (.num s 0)).intoF64 lib = .num s 0 := by
  rw [intoF64_fromF64 lib s (by norm_num) (k := k) (by simpa using hk) hkf]
  simp [round_zero]

/-- Exponents at which `powi` underflows to zero lose the number. -/
theorem collapse (lib : FloatLib) (s : Bool) {n : Nat} (hn : n ≤ f64Fmt.infBits)
    (hk : lib.powi (f64Fmt.ofInt 2) (((n / 2 ^ 52 : Nat) : Int) - 1075) = .num false 0) :
    (Magnitude.fromF64 (.num s n)).intoF64 lib = .num s 0 := by
  rw [intoF64_fromF64 lib s (lt_of_le_of_lt hn infBits_lt) hk (by decide)]
  simp [mag_zero, round_zero]

theorem round_pow2_m1075 : f64Fmt.round (pow2 (-1075)) = 0 := by decide +kernel

/-! ### The compiler-rt loop on powers of two -/

theorem powiLoop_pow2 (b i j : Nat) (h : i + j * b ≤ 1023) (hj : 1 ≤ j) :
    powiLoop f64Fmt (f64Pow2 i) (f64Pow2 j) b = f64Pow2 ((i + j * b : Nat) : Int) := by
  induction b using Nat.strong_induction_on generalizing i j with
  | _ b ih =>
    unfold powiLoop
    by_cases hb : b = 0
    · subst hb; simp
    · rw [dif_neg hb]
      have hjb : j ≤ j * b := Nat.le_mul_of_pos_right _ (by omega)
      have hmul : f64Fmt.mul (f64Pow2 i) (f64Pow2 j) = f64Pow2 ((i + j : Nat) : Int) := by
        rw [Nat.cast_add]; exact mul_pow2 (by omega) (by omega) (by omega) (by omega) (by omega) (by omega)
      simp only [hmul]
      rcases Nat.mod_two_eq_zero_or_one b with hm | hm
      · have hb2 : b = 2 * (b / 2) := by omega
        have hne : b / 2 ≠ 0 := by omega
        rw [if_neg hne, if_neg (by omega)]
        have hjj : j * b = (j + j) * (b / 2) := by
          conv_lhs => rw [hb2]
          ring
        have h2j : j + j ≤ (j + j) * (b / 2) := Nat.le_mul_of_pos_right _ (by omega)
        have hsq : f64Fmt.mul (f64Pow2 j) (f64Pow2 j) = f64Pow2 ((j + j : Nat) : Int) := by
          rw [Nat.cast_add]; exact mul_pow2 (by omega) (by omega) (by omega) (by omega) (by omega) (by omega)
        rw [hsq, ih (b / 2) (by omega) i (j + j) (by omega) (by omega), hjj]
      · have hb2 : b = 2 * (b / 2) + 1 := by omega
        rw [if_pos hm]
        by_cases hne : b / 2 = 0
        · rw [if_pos hne]; have : b = 1 := by omega
          subst this; simp
        · rw [if_neg hne]
          have hjj : i + j * b = (i + j) + (j + j) * (b / 2) := by
            conv_lhs => rw [hb2]
            ring
          have h2j : j + j ≤ (j + j) * (b / 2) := Nat.le_mul_of_pos_right _ (by omega)
          have hsq : f64Fmt.mul (f64Pow2 j) (f64Pow2 j) = f64Pow2 ((j + j : Nat) : Int) := by
            rw [Nat.cast_add]; exact mul_pow2 (by omega) (by omega) (by omega) (by omega) (by omega) (by omega)
          rw [hsq, ih (b / 2) (by omega) (i + j) (j + j) (by omega) (by omega), hjj]

theorem powiLoop_two (b : Nat) (h : b ≤ 1023) :
    powiLoop f64Fmt (f64Fmt.ofInt 1) (f64Fmt.ofInt 2) b = f64Pow2 (b : Int) := by
  rw [f64_ofInt_one, f64_ofInt_two]
  have := powiLoop_pow2 b 0 1 (by omega) (by omega)
  simpa using this

/-- compiler-rt's `powi(2.0, e)` is exact down to `2^-1023`. -/
theorem powiCompilerRt_two {e : Int} (h1 : -1023 ≤ e) (h2 : e ≤ 1023) :
    powiCompilerRt f64Fmt (f64Fmt.ofInt 2) e = .num false (f64Fmt.round (pow2 e)) := by
  unfold powiCompilerRt
  rw [powiLoop_two _ (by omega)]
  split
  · rename_i hneg
    rw [f64_ofInt_one]
    unfold f64Pow2
    have ha : ((e.natAbs : Int)) = -e := by omega
    rw [div_num _ (pow2bits_lt (by omega)) (pow2bits_lt (by omega)) (by
      have : 0 < ((e.natAbs : Int) + 1023).toNat * 2 ^ 52 := Nat.mul_pos (by omega) (by positivity)
      omega), mag_pow2 (by omega) (by omega), mag_pow2 (by omega) (by omega), ha]
    have : pow2 0 / pow2 (-e) = pow2 e := by
      rw [pow2_zero, div_eq_iff (pow2_pos _).ne', pow2_neg_mul]
    rw [this]; simp
  · rename_i hneg
    have ha : ((e.natAbs : Int)) = e := by omega
    rw [ha]; unfold f64Pow2
    rw [round_nat _ (by decide) (mag_pow2 (e := e) (by omega) (by omega)) (pow2bits_lt (by omega)).le]

/-- compiler-rt's `powi(2.0, -k)` is `1/inf = 0` for `1024 ≤ k ≤ 1075`. -/
theorem powiCompilerRt_underflow {e : Int} (h1 : -1075 ≤ e) (h2 : e ≤ -1024) :
    powiCompilerRt f64Fmt (f64Fmt.ofInt 2) e = .num false 0 := by
  have key : ∀ k : Fin 52, powiCompilerRt f64Fmt (f64Fmt.ofInt 2) (-(1024 + (k.val : Int))) = .num false 0 := by
    decide +kernel
  have := key ⟨(-1024 - e).toNat, by omega⟩
  simp only at this
  rwa [show -(1024 + ((-1024 - e).toNat : Int)) = e by omega] at this

/-- Anything at least `2^1024` rounds to infinity. -/
theorem round_overflow {q : ℚ} (h : pow2 1024 ≤ q) : f64Fmt.round q = f64Fmt.infBits := by
  have hq : 0 < q := lt_of_lt_of_le (pow2_pos _) h
  obtain ⟨E, m, hr, hm, hEm, -, hmax⟩ := round_pos f64Fmt (by decide) hq
  have hl : 1024 ≤ log2 q := by
    have := pow2_lt.1 (lt_of_le_of_lt h (log2_spec hq).2); omega
  have hp : (f64Fmt.p : Int) = 53 := rfl
  have he : f64Fmt.emin = -1074 := rfl
  have hE : 2046 ≤ E := by omega
  have hm' : 2 ^ 52 ≤ m := hEm.resolve_left (by omega)
  rw [hr]
  apply Nat.min_eq_right
  rw [f64_inf, f64_p]
  calc 2047 * 2 ^ 52 = 2046 * 2 ^ 52 + 2 ^ 52 := by norm_num
    _ ≤ E * 2 ^ 52 + m := Nat.add_le_add (Nat.mul_le_mul_right _ hE) hm'

/-- Bits at least `52·2^52` are exactly the values at least `2^-971`. -/
theorem mag_ge_iff (n : Nat) : pow2 (-971) ≤ f64Fmt.mag n ↔ 52 * 2 ^ 52 ≤ n := by
  have hmod := Nat.mod_lt n (show 0 < 2 ^ 52 by positivity)
  have hdm := Nat.div_add_mod n (2 ^ 52)
  constructor
  · intro h
    by_contra hc
    apply absurd h; apply not_le.2
    have hb : n / 2 ^ 52 ≤ 51 := by omega
    by_cases h0 : n / 2 ^ 52 = 0
    · have : n < 2 ^ 52 := by omega
      unfold Fmt.mag
      rw [if_pos (by rw [f64_p]; exact this)]
      calc (n : ℚ) * pow2 f64Fmt.emin < pow2 (52 : Nat) * pow2 f64Fmt.emin := by
            apply mul_lt_mul_of_pos_right _ (pow2_pos _)
            rw [pow2_nat]; exact_mod_cast this
        _ = pow2 (-1022) := by rw [← pow2_add]; rfl
        _ ≤ _ := pow2_le.2 (by norm_num)
    · rw [mag_normal h0]
      calc _ < pow2 (53 : Nat) * pow2 (((n / 2 ^ 52 : Nat) : Int) - 1075) := by
            apply mul_lt_mul_of_pos_right _ (pow2_pos _)
            rw [pow2_nat]
            exact Nat.cast_lt.2 (show 2 ^ 52 + n % 2 ^ 52 < 2 ^ 53 by omega)
        _ = pow2 ((53 : Nat) + (((n / 2 ^ 52 : Nat) : Int) - 1075)) := by rw [← pow2_add]
        _ ≤ _ := pow2_le.2 (by push_cast; omega)
  · intro h
    have hb : 52 ≤ n / 2 ^ 52 := by omega
    rw [mag_normal (by omega)]
    calc pow2 (-971) ≤ pow2 ((52 : Nat) + (((n / 2 ^ 52 : Nat) : Int) - 1075)) := pow2_le.2 (by push_cast; omega)
      _ = pow2 (52 : Nat) * pow2 (((n / 2 ^ 52 : Nat) : Int) - 1075) := by rw [← pow2_add]
      _ ≤ _ := by
        apply mul_le_mul_of_nonneg_right _ (pow2_pos _).le
        rw [pow2_nat]
        exact Nat.cast_le.2 (show 2 ^ 52 ≤ 2 ^ 52 + n % 2 ^ 52 by omega)

/-- `integer_decode_f64` of raw bits through the value vocabulary. -/
theorem integerDecode_fromF64 (bits : BitVec 64) :
    integerDecode bits = Magnitude.fromF64 (.num (decide (2 ^ 63 ≤ bits.toNat)) (bits.toNat % 2 ^ 63)) := by
  rw [fromF64_num _ (Nat.mod_lt _ (by norm_num)), integerDecode_eq]
  have : bits.toNat % 2 ^ 63 % 2 ^ 52 = bits.toNat % 2 ^ 52 := by omega
  rw [this]
  congr 1
  by_cases h : bits.toNat < 2 ^ 63
  · rw [if_pos h]; simp; omega
  · rw [if_neg h]; simp; omega

end Diman
