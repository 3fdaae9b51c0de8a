import Verif.Proofs.NumTraits
import Verif.Proofs.Estimate
/-! How accurate num-traits' `powi` is. -/
namespace Diman

/-! ### Powers of inexact numbers -/

theorem holds_powNumTraits {q : ℚ} {c : Nat} {x : Fl} {N : Nat} (hx : Holds x c q) (hm : moderate (q ^ N) = true)
    (hN : N * (c + 1) ≤ 2 ^ 30) : Holds (powNumTraits f64Fmt x N) (N * (c + 1)) (q ^ N) := by
  rcases Nat.eq_zero_or_pos N with rfl | hpos
  · simpa [powNumTraits] using holds_one
  · have := powNumTraits_spec (f := f64Fmt) (P := fun k y => Holds y (k * (c + 1) - 1) (q ^ k)) (N := N)
      (by
        intro i j y z hi hj hij hy hz
        have h1 : 1 ≤ i * (c + 1) := Nat.mul_pos hi (by omega)
        have h2 : 1 ≤ j * (c + 1) := Nat.mul_pos hj (by omega)
        have h3 : (i + j) * (c + 1) ≤ N * (c + 1) := Nat.mul_le_mul_right _ hij
        have e : (i * (c + 1) - 1) + (j * (c + 1) - 1) + 1 = (i + j) * (c + 1) - 1 := by rw [Nat.add_mul]; omega
        rw [← e, pow_add]
        refine holds_mul hy hz (by rw [e]; omega) ?_
        rw [← pow_add]; exact moderate_pow hij hm) x hpos (by simpa using hx)
    exact this.mono (Nat.sub_le _ _)

/-- The bound is twice that of compiler-rt: inverting first costs a rounding that is then raised to the power. -/
theorem holds_powiNumTraits {q : ℚ} {c : Nat} {x : Fl} {e : Int} (hx : Holds x (2 * c) q) (hm : moderate (q ^ e) = true)
    (hN : 2 * (e.natAbs * (c + 1) + 1) ≤ 2 ^ 30) : Holds (powiNumTraits f64Fmt x e) (2 * (e.natAbs * (c + 1) + 1)) (q ^ e) := by
  have hle : e.natAbs * (2 * c + 1) ≤ e.natAbs * (2 * c + 2) := Nat.mul_le_mul_left _ (by omega)
  have heq : e.natAbs * (2 * c + 2) = 2 * (e.natAbs * (c + 1)) := by ring
  unfold powiNumTraits
  split
  · rename_i hneg
    have e1 : q ^ e = (1 / q) ^ e.natAbs := by
      conv_lhs => rw [show e = -(e.natAbs : Int) by omega]
      rw [zpow_neg, zpow_natCast, one_div, inv_pow]
    rw [e1] at hm ⊢
    have hinv : moderate (1 / q) = true := by
      have := moderate_pow (q := 1 / q) (k := 1) (by omega) hm
      simpa using this
    have hc : 2 * c + 1 ≤ 2 ^ 30 := by
      have : 1 * (c + 1) ≤ e.natAbs * (c + 1) := Nat.mul_le_mul_right _ (by omega)
      omega
    have hd := holds_div holds_one hx (by omega) hinv
    rw [show 0 + 2 * c + 1 = 2 * c + 1 by omega] at hd
    exact (holds_powNumTraits hd hm (by show e.natAbs * (2 * c + 2) ≤ _; omega)).mono (by show e.natAbs * (2 * c + 2) ≤ _; omega)
  · rename_i hneg
    have e1 : q ^ e = q ^ e.natAbs := by
      conv_lhs => rw [show e = (e.natAbs : Int) by omega]
      rw [zpow_natCast]
    rw [e1] at hm ⊢
    exact (holds_powNumTraits hx hm (by omega)).mono (by omega)

theorem ntLib_cost (powf : Fl → Fl → Fl) : LibCost (ntLib powf) 2 where
  two := fun _ h1 h2 => powiNumTraits_two (by omega) (by omega)
  pos := by decide
  zero x := by
    show powiNumTraits f64Fmt x 0 = _
    simp [powiNumTraits, powNumTraits]
  pow := fun hx hm hN => holds_powiNumTraits hx hm hN

theorem buildLib_cost (std : Bool) (powf : Fl → Fl → Fl) : LibCost (buildLib std powf) (if std then 1 else 2) := by
  cases std
  · exact ntLib_cost powf
  · exact rtLib_cost powf

theorem buildLib_stores (std : Bool) (powf : Fl → Fl → Fl) : LibStores (buildLib std powf) 1 := ⟨buildLib_powiTwo std powf, le_rfl⟩

theorem buildLib_powf (std : Bool) (powf : Fl → Fl → Fl) : (buildLib std powf).powf = powf := by cases std <;> rfl

end Diman
