import Verif.Model.NumTraits
import Verif.Proofs.Magnitude
/-! num-traits' `pow` computes powers, whatever is meant by that. -/
namespace Diman

section
variable {f : Fmt} {P : Nat → Fl → Prop} {N : Nat} (hP : ∀ i j x y, 1 ≤ i → 1 ≤ j → i + j ≤ N → P i x → P j y → P (i + j) (f.mul x y))
include hP

theorem powSkip_spec (w e : Nat) (b : Fl) (hw : 1 ≤ w) (he : 1 ≤ e) (hb : P w b) (hN : w * e = N) :
    ∃ w', 1 ≤ w' ∧ P w' (powSkip f b e).1 ∧ w' * (powSkip f b e).2 = N ∧ (powSkip f b e).2 % 2 = 1 := by
  induction e using Nat.strong_induction_on generalizing w b with
  | _ e ih =>
    unfold powSkip
    by_cases h : e = 0 ∨ e % 2 = 1
    · rw [dif_pos h]; exact ⟨w, hw, hb, hN, by simp only; omega⟩
    · rw [dif_neg h]
      have h2 : e = 2 * (e / 2) := by omega
      have hww : (w + w) * (e / 2) = N := by rw [← hN]; conv_rhs => rw [h2]
                                             ring
      have h3 : w + w ≤ N := by rw [← hww]; exact Nat.le_mul_of_pos_right _ (by omega)
      exact ih (e / 2) (by omega) (w + w) _ (by omega) (by omega) (hP w w b b hw hw h3 hb hb) hww

theorem powAcc_spec (a w e : Nat) (acc b : Fl) (ha : 1 ≤ a) (hw : 1 ≤ w) (he : 1 ≤ e) (hacc : P a acc) (hb : P w b)
    (hN : a + w * (2 * (e / 2)) = N) : P N (powAcc f acc b e) := by
  induction e using Nat.strong_induction_on generalizing a w acc b with
  | _ e ih =>
    unfold powAcc
    by_cases h : e ≤ 1
    · rw [dif_pos h]
      have : e / 2 = 0 := by omega
      rw [this] at hN
      have hN : a = N := by simpa using hN
      rw [← hN]; exact hacc
    · rw [dif_neg h]
      have h1 : 1 ≤ e / 2 := by omega
      have hww : a + (w + w) * (e / 2) = N := by rw [← hN]; ring
      have h3 : w + w ≤ (w + w) * (e / 2) := Nat.le_mul_of_pos_right _ h1
      have hsq := hP w w b b hw hw (by omega) hb hb
      refine ih (e / 2) (by omega) (if e / 2 % 2 = 1 then a + (w + w) else a) (w + w) _ _ (by split <;> omega) (by omega) h1 ?_ hsq ?_
      · split
        · exact hP a (w + w) _ _ ha (by omega) (by omega) hacc hsq
        · exact hacc
      · rcases Nat.mod_two_eq_zero_or_one (e / 2) with hm | hm
        · rw [if_neg (by omega), show 2 * (e / 2 / 2) = e / 2 by omega, hww]
        · rw [if_pos hm, ← hww]
          conv_rhs => rw [show e / 2 = 2 * (e / 2 / 2) + 1 by omega]
          ring

theorem powNumTraits_spec (b : Fl) (hN : 1 ≤ N) (hb : P 1 b) : P N (powNumTraits f b N) := by
  unfold powNumTraits
  rw [if_neg (by omega)]
  obtain ⟨w, hw, h1, h2, h3⟩ := powSkip_spec hP 1 N b le_rfl hN hb (Nat.one_mul _)
  split
  · rename_i h
    rw [h, Nat.mul_one] at h2
    rw [h2] at h1; exact h1
  · refine powAcc_spec hP w w _ _ _ hw hw (by omega) h1 h1 ?_
    refine Eq.trans ?_ h2
    generalize (powSkip f b N).2 = k at h3 ⊢
    conv_rhs => rw [show k = 2 * (k / 2) + 1 by omega]
    ring
end

/-! ### Powers of two -/

/-- Powers of two from the least subnormal on are represented exactly. -/
theorem pow2_rep {e : Int} (h1 : -1074 ≤ e) (h2 : e ≤ 1023) :
    f64Fmt.mag (f64Fmt.round (pow2 e)) = pow2 e ∧ f64Fmt.round (pow2 e) < f64Fmt.infBits := by
  rcases lt_or_ge e (-1022) with h | h
  · obtain ⟨k, hk⟩ := Int.eq_ofNat_of_zero_le (show 0 ≤ e + 1074 by omega)
    have hk51 : k ≤ 51 := by omega
    have hle : 2 ^ k ≤ 2 ^ 51 := Nat.pow_le_pow_right (by norm_num) hk51
    have := mag_compose f64Fmt (by decide) (E := 0) (m := 2 ^ k) (by rw [f64_p]; omega) (Or.inl rfl)
    simp only [Nat.zero_mul, Nat.zero_add] at this
    rw [← pow2_nat, ← pow2_add, show (k : Int) + (f64Fmt.emin + ((0 : Nat) : Int)) = e by
      simp only [f64Fmt]; omega] at this
    have hlt : 2 ^ k < f64Fmt.infBits := by rw [f64_inf]; omega
    rw [round_nat _ (by decide) this hlt.le]; exact ⟨this, hlt⟩
  · have := mag_pow2 (e := e) h (by omega)
    have hlt := pow2bits_lt (e := e) (by omega)
    rw [round_nat _ (by decide) this hlt.le]; exact ⟨this, hlt⟩

theorem mul_pow2_rep {a b : Int} (ha : -1074 ≤ a) (ha' : a ≤ 1023) (hb : -1074 ≤ b) (hb' : b ≤ 1023) :
    f64Fmt.mul (.num false (f64Fmt.round (pow2 a))) (.num false (f64Fmt.round (pow2 b))) = .num false (f64Fmt.round (pow2 (a + b))) := by
  rw [mul_num _ (pow2_rep ha ha').2 (pow2_rep hb hb').2, (pow2_rep ha ha').1, (pow2_rep hb hb').1, pow2_add]
  simp

/-- num-traits' `powi(2.0, e)` is exact for every power of two that `f64` has. -/
theorem powiNumTraits_two {e : Int} (h1 : -1074 ≤ e) (h2 : e ≤ 1023) :
    powiNumTraits f64Fmt (f64Fmt.ofInt 2) e = .num false (f64Fmt.round (pow2 e)) := by
  unfold powiNumTraits
  split
  · rename_i hneg
    have hh : f64Fmt.div (f64Fmt.ofInt 1) (f64Fmt.ofInt 2) = .num false (f64Fmt.round (pow2 (-1))) := by decide +kernel
    have := powNumTraits_spec (f := f64Fmt) (P := fun k x => x = .num false (f64Fmt.round (pow2 (-(k : Int))))) (N := e.natAbs)
      (by rintro i j x y hi hj hij rfl rfl
          rw [mul_pow2_rep (by omega) (by omega) (by omega) (by omega)]
          congr 3; push_cast; ring) _ (by omega) hh
    rw [this]; congr 3; omega
  · by_cases h0 : e = 0
    · subst h0; decide +kernel
    · have hh : f64Fmt.ofInt 2 = .num false (f64Fmt.round (pow2 1)) := by decide +kernel
      have := powNumTraits_spec (f := f64Fmt) (P := fun k x => x = .num false (f64Fmt.round (pow2 (k : Int)))) (N := e.natAbs)
        (by rintro i j x y hi hj hij rfl rfl
            rw [mul_pow2_rep (by omega) (by omega) (by omega) (by omega)]
            congr 3) _ (by omega) hh
      rw [this]; congr 3; omega

/-- One power further down there is nothing. -/
theorem powiNumTraits_underflow : powiNumTraits f64Fmt (f64Fmt.ofInt 2) (-1075) = .num false 0 := by decide +kernel

end Diman
