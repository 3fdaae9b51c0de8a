import Verif.Model.SoftText
import Verif.Spec.Text
import Verif.Props.C03
import Verif.Spec.Float
/-! The laws `LawfulText` for IEEE floats, given that core reads back the numbers it prints. -/
set_option linter.unusedSectionVars false
namespace Diman

/-- What is assumed of core: a float is read back from the text it prints, and that text is one word without reserved characters. -/
structure FloatText.RoundTrips (T : FloatText) : Prop where
  parse_show : ∀ t x, t.fmt.Valid x → T.parseF t (T.showF t x) = some x
  show_plain : ∀ t x, t.fmt.Valid x → PlainText (T.showF t x)

/-- What is assumed of the platform's `powi` and `powf`: powers of two are correctly rounded, every power of one is one. -/
structure FloatLib.Ones (lib : FloatLib) : Prop where
  two : PowiTwo lib (-1023)
  powi_one : ∀ i : Int, InI32 i → lib.powi (f64Fmt.ofInt 1) i = f64Fmt.ofInt 1
  powf_one : ∀ y : Fl, lib.powf (f64Fmt.ofInt 1) y = f64Fmt.ofInt 1

theorem powiLoop_one (b : Nat) : powiLoop f64Fmt (f64Fmt.ofInt 1) (f64Fmt.ofInt 1) b = f64Fmt.ofInt 1 := by
  have h1 : f64Fmt.mul (f64Fmt.ofInt 1) (f64Fmt.ofInt 1) = f64Fmt.ofInt 1 := by decide +kernel
  induction b using Nat.strong_induction_on with
  | _ b ih =>
    unfold powiLoop
    split
    · rfl
    · simp only [h1, ite_self]
      split
      · rfl
      · exact ih _ (by omega)

/-- compiler-rt's `powi` meets the assumptions; so does every `powf` with `powf(1, y) = 1` (required by IEEE-754 and C). -/
theorem rtLib_ones {powf : Fl → Fl → Fl} (h : ∀ y, powf (f64Fmt.ofInt 1) y = f64Fmt.ofInt 1) : (rtLib powf).Ones where
  two := rtLib_powiTwo powf
  powi_one i _ := by
    show powiCompilerRt f64Fmt (f64Fmt.ofInt 1) i = _
    unfold powiCompilerRt
    simp only [powiLoop_one]
    split
    · decide +kernel
    · rfl
  powf_one := h

theorem powNumTraits_one (b : Nat) : powNumTraits f64Fmt (f64Fmt.ofInt 1) b = f64Fmt.ofInt 1 := by
  have h1 : f64Fmt.mul (f64Fmt.ofInt 1) (f64Fmt.ofInt 1) = f64Fmt.ofInt 1 := by decide +kernel
  rcases Nat.eq_zero_or_pos b with rfl | hb
  · rfl
  · exact powNumTraits_spec (f := f64Fmt) (P := fun _ x => x = f64Fmt.ofInt 1) (by rintro i j x y - - - rfl rfl; exact h1) _ hb rfl

/-- num-traits' `powi` meets the assumptions too. -/
theorem ntLib_ones {powf : Fl → Fl → Fl} (h : ∀ y, powf (f64Fmt.ofInt 1) y = f64Fmt.ofInt 1) : (ntLib powf).Ones where
  two := buildLib_powiTwo false powf
  powi_one i _ := by
    have h1 : f64Fmt.div (f64Fmt.ofInt 1) (f64Fmt.ofInt 1) = f64Fmt.ofInt 1 := by decide +kernel
    show powiNumTraits f64Fmt (f64Fmt.ofInt 1) i = _
    unfold powiNumTraits
    rw [h1, powNumTraits_one, ite_self]
  powf_one := h

theorem one_bits (t : FloatTy) : ∃ n, t.fmt.ofInt 1 = .num false n ∧ n < t.fmt.infBits ∧ n ≠ 0 ∧ t.fmt.mag n = 1 := by
  cases t
  · exact ⟨127 * 2 ^ 23, by decide +kernel⟩
  · exact ⟨1023 * 2 ^ 52, by decide +kernel⟩

theorem fmt_p (t : FloatTy) : 1 ≤ t.fmt.p := by cases t <;> decide

theorem mul_ofInt_one (t : FloatTy) {x : Fl} (h : t.fmt.Valid x) : t.fmt.mul x (t.fmt.ofInt 1) = x ∧ t.fmt.mul (t.fmt.ofInt 1) x = x := by
  obtain ⟨b, hb, hb1, hb0, hbm⟩ := one_bits t
  rw [hb]
  cases x with
  | nan => exact ⟨rfl, rfl⟩
  | num s n =>
    have hi : t.fmt.isInf b = false := by simpa [Fmt.isInf] using hb1
    by_cases hn : n = t.fmt.infBits
    · subst hn
      have hinf : t.fmt.isInf t.fmt.infBits = true := by simp [Fmt.isInf]
      simp [Fmt.mul, hinf, hi, hb0]
    · have hlt : n < t.fmt.infBits := lt_of_le_of_ne h hn
      rw [mul_num _ hlt hb1, mul_num _ hb1 hlt, hbm, mul_one, one_mul, round_mag _ (fmt_p t) h]
      cases s <;> simp

theorem into_one {lib : FloatLib} (hl : lib.Ones) : (Magnitude.fromF64 (f64Fmt.ofInt 1)).intoF64 lib = f64Fmt.ofInt 1 := by
  rw [show f64Fmt.ofInt 1 = .num false (1023 * 2 ^ 52) by decide +kernel]
  exact roundtrip_normal lib hl.two (by norm_num) false (by decide) (by decide) (by decide)

theorem feq_one {x : Fl} (h : x.feq (f64Fmt.ofInt 1) = true) : x = f64Fmt.ofInt 1 := by
  rw [show f64Fmt.ofInt 1 = .num false (1023 * 2 ^ 52) by decide +kernel] at h ⊢
  cases x with
  | nan => cases h
  | num s n =>
    simp only [Fl.feq, Bool.and_eq_true, beq_iff_eq, Bool.or_eq_true] at h
    obtain ⟨rfl, rfl | h⟩ := h
    · rfl
    · norm_num at h

theorem f64_one_mul : f64Fmt.mul (f64Fmt.ofInt 1) (f64Fmt.ofInt 1) = f64Fmt.ofInt 1 := by decide +kernel

theorem one_is_finite : (match f64Fmt.ofInt 1 with | .nan => false | .num _ n => !f64Fmt.isInf n) = true := by decide +kernel

section
variable (P : PlatformFns) (T : FloatText)

/-- IEEE floats with integer exponents. -/
@[reducible] def softLawfulInt (hl : P.lib.Ones) (ht : T.RoundTrips) :
    letI := magOpsInt P.lib; letI := softPrims P; letI := softText T; LawfulText Int Fl Magnitude :=
  letI := magOpsInt P.lib; letI := softPrims P; letI := softText T
  { Valid := fun t x => t.fmt.Valid x
    parse_show := fun {t x} h => ht.parse_show t x h
    show_plain := fun {t x} h => ht.show_plain t x h
    one_isOne := by
      show Fl.feq ((Magnitude.fromF64 (f64Fmt.ofInt 1)).intoF64 P.lib) (f64Fmt.ofInt 1) = true
      rw [into_one hl]; decide +kernel
    isOne_into := fun {m} h => feq_one (x := m.intoF64 P.lib) h
    one_finite := one_is_finite
    pow_one := fun {i} hi => by
      show (Magnitude.floatPowInt P.lib (Magnitude.fromF64 (f64Fmt.ofInt 1)) i).intoF64 P.lib = f64Fmt.ofInt 1
      unfold Magnitude.floatPowInt
      rw [into_one hl, hl.powi_one, into_one hl]
      have : Magnitude.asI32 i = i := by
        unfold Magnitude.asI32
        have := hi.1; have := hi.2
        exact Int.bmod_eq_of_le (by norm_num; omega) (by norm_num; omega)
      rw [this]; exact hi
    one_mul_one := f64_one_mul
    ofF64_one := fun t => by
      show Fmt.convert f64Fmt t.fmt (f64Fmt.ofInt 1) = t.fmt.ofInt 1
      cases t <;> decide +kernel
    mul_one := fun {t x} h => (mul_ofInt_one t h).1
    one_mul := fun {t x} h => (mul_ofInt_one t h).2 }

/-- IEEE floats with rational exponents. -/
@[reducible] def softLawfulRatio (hl : P.lib.Ones) (ht : T.RoundTrips) :
    letI := magOpsRatio P.lib; letI := softPrims P; letI := softText T; LawfulText Ratio Fl Magnitude :=
  letI := magOpsRatio P.lib; letI := softPrims P; letI := softText T
  { Valid := fun t x => t.fmt.Valid x
    parse_show := fun {t x} h => ht.parse_show t x h
    show_plain := fun {t x} h => ht.show_plain t x h
    one_isOne := by
      show Fl.feq ((Magnitude.fromF64 (f64Fmt.ofInt 1)).intoF64 P.lib) (f64Fmt.ofInt 1) = true
      rw [into_one hl]; decide +kernel
    isOne_into := fun {m} h => feq_one (x := m.intoF64 P.lib) h
    one_finite := one_is_finite
    pow_one := fun {i} hi => by
      show (Magnitude.floatPowRatio P.lib (Magnitude.fromF64 (f64Fmt.ofInt 1)) (Ratio.int i)).intoF64 P.lib = f64Fmt.ofInt 1
      unfold Magnitude.floatPowRatio Magnitude.powRational
      rw [into_one hl, hl.powf_one, into_one hl]
    one_mul_one := f64_one_mul
    ofF64_one := fun t => by
      show Fmt.convert f64Fmt t.fmt (f64Fmt.ofInt 1) = t.fmt.ofInt 1
      cases t <;> decide +kernel
    mul_one := fun {t x} h => (mul_ofInt_one t h).1
    one_mul := fun {t x} h => (mul_ofInt_one t h).2 }
end

instance : LawfulShow Ratio := ⟨fun i => by
  simp [ShowExponent.showE, Exponent.ofInt, Ratio.int]⟩

end Diman
