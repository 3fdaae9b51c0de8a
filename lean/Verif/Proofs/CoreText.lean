import Verif.Spec.FloatText
import Verif.Proofs.TextStr
import Verif.Proofs.FloatOrder
import Verif.Proofs.SoftText
/-! core's float text: reading back what is printed, and the printed digits are the shortest. -/
namespace Diman

theorem pow10_eq (e : Int) : pow10 e = (10 : ℚ) ^ e := by
  unfold pow10
  split
  · rename_i h
    obtain ⟨k, rfl⟩ := Int.eq_ofNat_of_zero_le h
    simp
  · rename_i h
    obtain ⟨k, hk⟩ := Int.eq_ofNat_of_zero_le (a := -e) (by omega)
    rw [hk]
    obtain rfl : e = -(k : Int) := by omega
    rw [Rat.mkRat_eq_div]
    simp

theorem pow10_pos (e : Int) : (0 : ℚ) < 10 ^ e := by positivity

theorem ten_mul_neg (e : Int) : (10 : ℚ) ^ e * 10 ^ (-e) = 1 := by
  rw [← zpow_add₀ (by norm_num)]; simp

/-- Numbers between two numbers that round to `n` round to `n`. -/
theorem round_between (f : Fmt) (hp : 1 ≤ f.p) {a b c : ℚ} {n : Nat} (ha : f.round a = n) (hb : f.round b = n) (h1 : a ≤ c) (h2 : c ≤ b) :
    f.round c = n :=
  le_antisymm (hb ▸ round_mono f hp h2) (ha ▸ round_mono f hp h1)

/-- Every finite float is a whole number of `10^emin`. -/
theorem mag_decimal (f : Fmt) (hp : 1 ≤ f.p) (he : f.emin ≤ 0) (n : Nat) : ∃ k : Nat, f.mag n * 10 ^ (-f.emin) = k := by
  obtain ⟨E, m, rfl, hm, hE⟩ := bits_decompose f hp n
  rw [mag_compose f hp hm.le hE]
  obtain ⟨j, hj⟩ := Int.eq_ofNat_of_zero_le (a := -f.emin) (by omega)
  refine ⟨m * 2 ^ E * 5 ^ j, ?_⟩
  rw [hj, show f.emin + (E : Int) = -(j : Int) + E by omega, pow2_add, pow2_nat, pow2_eq]
  rw [show (10 : ℚ) = 2 * 5 by norm_num, mul_zpow, zpow_neg, zpow_natCast, zpow_natCast]
  push_cast
  field_simp

section
variable (f : Fmt) (hp : 1 ≤ f.p) (he : f.emin ≤ 0) {n : Nat} (hn : n ≤ f.infBits)
include hp he hn

/-- What the search for digits finds. -/
theorem shortestFrom_spec : ∀ (fuel : Nat) (e : Int), (fuel : Int) = e - f.emin → ∀ m r, shortestFrom f n fuel e = (m, r) →
    f.ReadsAs m r n ∧ f.emin ≤ r ∧ r ≤ e ∧ (∀ e' : Int, r < e' → e' ≤ e → ∀ m', ¬ f.ReadsAs m' e' n) ∧
    (∀ m', f.ReadsAs m' r n → |(m : ℚ) * 10 ^ r - f.mag n| ≤ |(m' : ℚ) * 10 ^ r - f.mag n|) ∧
    (m = (f.mag n * 10 ^ (-r)).floor.toNat ∨ m = (f.mag n * 10 ^ (-r)).floor.toNat + 1) := by
  have hv0 := mag_nonneg f n
  have hself : f.round (f.mag n) = n := round_mag f hp hn
  -- the digits down to position `e`
  have hfl : ∀ e : Int, ((f.mag n * 10 ^ (-e)).floor.toNat : ℚ) ≤ f.mag n * 10 ^ (-e) ∧
      f.mag n * 10 ^ (-e) < ((f.mag n * 10 ^ (-e)).floor.toNat : ℚ) + 1 := by
    intro e
    have h0 : 0 ≤ f.mag n * 10 ^ (-e) := mul_nonneg hv0 (pow10_pos _).le
    have h1 : 0 ≤ (f.mag n * 10 ^ (-e)).floor := by rw [rat_floor_eq]; exact Int.floor_nonneg.2 h0
    have h2 : (((f.mag n * 10 ^ (-e)).floor.toNat : Int) : ℚ) = ((f.mag n * 10 ^ (-e)).floor : ℚ) := by
      rw [Int.toNat_of_nonneg h1]
    rw [Int.cast_natCast] at h2
    rw [h2, rat_floor_eq]
    exact ⟨Int.floor_le _, Int.lt_floor_add_one _⟩
  have hscale : ∀ (z : ℚ) (e : Int), |z * 10 ^ e - f.mag n| = |z - f.mag n * 10 ^ (-e)| * 10 ^ e := by
    intro z e
    have : z * 10 ^ e - f.mag n = (z - f.mag n * 10 ^ (-e)) * 10 ^ e := by
      rw [sub_mul, mul_assoc, mul_comm ((10 : ℚ) ^ (-e)), ten_mul_neg, mul_one]
    rw [this, abs_mul, abs_of_pos (pow10_pos e)]
  have hback : ∀ e : Int, f.mag n = f.mag n * 10 ^ (-e) * 10 ^ e := by
    intro e; rw [mul_assoc, mul_comm ((10 : ℚ) ^ (-e)), ten_mul_neg, mul_one]
  have hle : ∀ (z : ℚ) (e : Int), z ≤ f.mag n * 10 ^ (-e) → z * 10 ^ e ≤ f.mag n := by
    intro z e h
    conv_rhs => rw [hback e]
    exact mul_le_mul_of_nonneg_right h (pow10_pos e).le
  have hge : ∀ (z : ℚ) (e : Int), f.mag n * 10 ^ (-e) ≤ z → f.mag n ≤ z * 10 ^ e := by
    intro z e h
    conv_lhs => rw [hback e]
    exact mul_le_mul_of_nonneg_right h (pow10_pos e).le
  -- a decimal at position `e` that reads as the float is the floor, above, or below it; the floor or its successor does so too
  have hcand : ∀ (e : Int) (m' : Nat), f.ReadsAs m' e n →
      (m' ≤ (f.mag n * 10 ^ (-e)).floor.toNat ∧ f.ReadsAs (f.mag n * 10 ^ (-e)).floor.toNat e n) ∨
      ((f.mag n * 10 ^ (-e)).floor.toNat + 1 ≤ m' ∧ f.ReadsAs ((f.mag n * 10 ^ (-e)).floor.toNat + 1) e n) := by
    intro e m' h
    generalize hlo : (f.mag n * 10 ^ (-e)).floor.toNat = lo
    have hf := hfl e
    rw [hlo] at hf
    rcases Nat.lt_or_ge lo m' with hlt | hle'
    · right
      refine ⟨hlt, round_between f hp hself h (hge _ _ ?_) ?_⟩
      · push_cast; exact hf.2.le
      · exact mul_le_mul_of_nonneg_right (by exact_mod_cast hlt) (pow10_pos e).le
    · left
      refine ⟨hle', round_between f hp h hself ?_ (hle _ _ hf.1)⟩
      exact mul_le_mul_of_nonneg_right (by exact_mod_cast hle') (pow10_pos e).le
  intro fuel
  induction fuel with
  | zero =>
    intro e hfuel m r h
    obtain rfl : e = f.emin := by push_cast at hfuel; omega
    simp only [shortestFrom, pow10_eq, Prod.mk.injEq] at h
    obtain ⟨rfl, rfl⟩ := h
    obtain ⟨k, hk⟩ := mag_decimal f hp he n
    have hfk : (f.mag n * 10 ^ (-f.emin)).floor.toNat = k := by rw [hk, rat_floor_eq]; simp
    have hkv : (k : ℚ) * 10 ^ f.emin = f.mag n := by rw [← hk]; exact (hback _).symm
    rw [hfk]
    refine ⟨?_, le_refl _, le_refl _, fun e' h1 h2 => absurd h1 (by omega), ?_, .inl rfl⟩
    · unfold Fmt.ReadsAs; rw [hkv]; exact hself
    · intro m' _; rw [hkv, sub_self, abs_zero]; exact abs_nonneg _
  | succ fuel ih =>
    intro e hfuel m r h
    have hf := hfl e
    have hc := hcand e
    simp only [shortestFrom, pow10_eq] at h
    generalize hlo : (f.mag n * 10 ^ (-e)).floor.toNat = lo at h hf hc
    -- distances
    have hdown : ∀ m' : Nat, m' ≤ lo → |(lo : ℚ) * 10 ^ e - f.mag n| ≤ |(m' : ℚ) * 10 ^ e - f.mag n| := by
      intro m' hm'
      rw [hscale, hscale]
      refine mul_le_mul_of_nonneg_right ?_ (pow10_pos e).le
      have : (m' : ℚ) ≤ lo := by exact_mod_cast hm'
      rw [abs_of_nonpos (by linarith [hf.1]), abs_of_nonpos (by linarith [hf.1])]; linarith
    have hup : ∀ m' : Nat, lo + 1 ≤ m' → |((lo + 1 : Nat) : ℚ) * 10 ^ e - f.mag n| ≤ |(m' : ℚ) * 10 ^ e - f.mag n| := by
      intro m' hm'
      rw [hscale, hscale]
      refine mul_le_mul_of_nonneg_right ?_ (pow10_pos e).le
      have : (lo : ℚ) + 1 ≤ m' := by exact_mod_cast hm'
      push_cast
      rw [abs_of_nonneg (by linarith [hf.2]), abs_of_nonneg (by linarith [hf.2])]; linarith
    have hne : ∀ {r : Int}, r = e → f.emin ≤ r ∧ r ≤ e ∧ ∀ e' : Int, r < e' → e' ≤ e → ∀ m', ¬ f.ReadsAs m' e' n := by
      rintro _ rfl
      exact ⟨by omega, le_refl _, fun e' h1 h2 => absurd h1 (by omega)⟩
    split at h
    · rename_i hb
      simp only [Prod.mk.injEq] at h
      obtain ⟨rfl, rfl⟩ := h
      have hdist : |((lo + 1 : Nat) : ℚ) * 10 ^ e - f.mag n| = ((lo : ℚ) + 1 - f.mag n * 10 ^ (-e)) * 10 ^ e := by
        rw [hscale]; push_cast; rw [abs_of_nonneg (by linarith [hf.2])]
      have hdist' : |(lo : ℚ) * 10 ^ e - f.mag n| = (f.mag n * 10 ^ (-e) - lo) * 10 ^ e := by
        rw [hscale, abs_of_nonpos (by linarith [hf.1])]; ring
      split
      · rename_i hlt
        refine ⟨hb.1, (hne rfl).1, (hne rfl).2.1, (hne rfl).2.2, ?_, .inl hlo.symm⟩
        intro m' hm'
        rcases hc m' hm' with ⟨h, _⟩ | ⟨h, _⟩
        · exact hdown m' h
        · refine le_trans ?_ (hup m' h)
          rw [hdist, hdist']
          exact mul_le_mul_of_nonneg_right (by linarith) (pow10_pos e).le
      · rename_i hlt
        refine ⟨hb.2, (hne rfl).1, (hne rfl).2.1, (hne rfl).2.2, ?_, .inr (by rw [hlo])⟩
        intro m' hm'
        rcases hc m' hm' with ⟨h, _⟩ | ⟨h, _⟩
        · refine le_trans ?_ (hdown m' h)
          rw [hdist, hdist']
          exact mul_le_mul_of_nonneg_right (by linarith) (pow10_pos e).le
        · exact hup m' h
    · rename_i hb
      split at h
      · rename_i hd
        simp only [Prod.mk.injEq] at h
        obtain ⟨rfl, rfl⟩ := h
        refine ⟨hd, (hne rfl).1, (hne rfl).2.1, (hne rfl).2.2, ?_, .inl hlo.symm⟩
        intro m' hm'
        rcases hc m' hm' with ⟨h, _⟩ | ⟨_, h⟩
        · exact hdown m' h
        · exact absurd ⟨hd, h⟩ hb
      · rename_i hd
        split at h
        · rename_i hu
          simp only [Prod.mk.injEq] at h
          obtain ⟨rfl, rfl⟩ := h
          refine ⟨hu, (hne rfl).1, (hne rfl).2.1, (hne rfl).2.2, ?_, .inr (by rw [hlo])⟩
          intro m' hm'
          rcases hc m' hm' with ⟨_, h⟩ | ⟨h, _⟩
          · exact absurd h hd
          · exact hup m' h
        · rename_i hu
          obtain ⟨h1, h2, h3, h4, h5⟩ := ih (e - 1) (by push_cast at hfuel; omega) m r h
          refine ⟨h1, h2, by omega, ?_, h5⟩
          intro e' h6 h7 m' hm'
          rcases Int.lt_or_le e' e with hlt | hge'
          · exact h4 e' h6 (by omega) m' hm'
          · obtain rfl : e' = e := by omega
            rcases hc m' hm' with ⟨_, h⟩ | ⟨_, h⟩
            · exact hd h
            · exact hu h

end

/-! ## Numbers of digits -/

theorem showNat_length (n : Nat) : (showNat n).length = if n = 0 then 1 else (Nat.digits 10 n).length := by
  induction n using Nat.strong_induction_on with
  | _ n ih =>
    unfold showNat
    split
    · rename_i h
      rcases Nat.eq_zero_or_pos n with rfl | h0
      · rfl
      · rw [if_neg (by omega), Nat.digits_of_lt 10 n (by omega) h]; rfl
    · rename_i h
      rw [List.length_append, ih (n / 10) (by omega), if_neg (by omega), if_neg (by omega)]
      rw [Nat.digits_def' (by norm_num) (by omega : 0 < n)]
      simp

theorem lt_ten_pow (n : Nat) : n < 10 ^ (showNat n).length := by
  rw [showNat_length]
  split
  · rename_i h; subst h; norm_num
  · exact Nat.lt_base_pow_length_digits (by norm_num)

section
variable (f : Fmt) (hp : 1 ≤ f.p) (he : f.emin ≤ 0) {n : Nat} (hn : n ≤ f.infBits)
include hp he hn

/-- The digits found read as the float. -/
theorem shortest_reads : f.ReadsAs (shortest f n).1 (shortest f n).2 n := by
  refine (shortestFrom_spec f hp he hn _ _ ?_ _ _ (Prod.mk.eta).symm).1
  omega

/-- No decimal with its last digit at the same place is closer. -/
theorem shortest_closest (m : Nat) (h : f.ReadsAs m (shortest f n).2 n) :
    |((shortest f n).1 : ℚ) * 10 ^ (shortest f n).2 - f.mag n| ≤ |(m : ℚ) * 10 ^ (shortest f n).2 - f.mag n| := by
  refine (shortestFrom_spec f hp he hn _ _ ?_ _ _ (Prod.mk.eta).symm).2.2.2.2.1 m h
  omega

/-- No decimal with fewer digits reads as the float. -/
theorem shortest_digits (h0 : 0 < n) (m' : Nat) (e' : Int) (h' : f.ReadsAs m' e' n) :
    (Nat.digits 10 (shortest f n).1).length ≤ (Nat.digits 10 m').length := by
  have hself : f.round (f.mag n) = n := round_mag f hp hn
  obtain ⟨D, hD⟩ : ∃ D : Nat, D = (showNat (f.mag n).floor.toNat).length := ⟨_, rfl⟩
  have hvD : f.mag n < (10 : ℚ) ^ (D : Int) := by
    have h1 := lt_ten_pow (f.mag n).floor.toNat
    rw [← hD] at h1
    have h2 : 0 ≤ (f.mag n).floor := by rw [rat_floor_eq]; exact Int.floor_nonneg.2 (mag_nonneg f n)
    have h3 : (f.mag n).floor + 1 ≤ ((10 ^ D : Nat) : Int) := by omega
    have h4 := Int.lt_floor_add_one (f.mag n)
    rw [← rat_floor_eq] at h4
    have h5 : (((f.mag n).floor + 1 : Int) : ℚ) ≤ (((10 ^ D : Nat) : Int) : ℚ) := by exact_mod_cast h3
    push_cast at h5
    rw [zpow_natCast]
    linarith
  obtain ⟨h1, h2, h3, h4, -, h6⟩ := shortestFrom_spec f hp he hn ((D : Int) - f.emin).toNat D (by omega) _ _ (Prod.mk.eta).symm
  have hsh : shortest f n = shortestFrom f n ((D : Int) - f.emin).toNat D := by rw [hD]; rfl
  rw [← hsh] at h1 h2 h3 h4 h6
  generalize (shortest f n).1 = m at *
  generalize (shortest f n).2 = r at *
  have hpos : ∀ {m : Nat} {e : Int}, f.ReadsAs m e n → 0 < m := by
    intro m e h
    rcases Nat.eq_zero_or_pos m with rfl | h
    · unfold Fmt.ReadsAs at h
      rw [Nat.cast_zero, zero_mul, round_zero] at h
      omega
    · exact h
  -- nothing is left of the last digit
  have hleft : ∀ (m' : Nat) (e' : Int), f.ReadsAs m' e' n → r < e' → m ≤ 1 := by
    intro m' e' h' hlt
    rcases Int.lt_or_le (D : Int) e' with hgt | hle
    · have hD1 : f.ReadsAs 1 D n := by
        refine round_between f hp hself h' ?_ ?_
        · rw [Nat.cast_one, one_mul]; exact hvD.le
        · refine mul_le_mul (by exact_mod_cast hpos h') (zpow_le_zpow_right₀ (by norm_num) hgt.le) (pow10_pos _).le (by positivity)
      rcases Int.lt_or_le r D with hlt' | hge
      · exact absurd hD1 (h4 D hlt' (le_refl _) 1)
      · obtain rfl : r = D := le_antisymm h3 hge
        have : (f.mag n * 10 ^ (-(D : Int))).floor.toNat = 0 := by
          have h7 : f.mag n * 10 ^ (-(D : Int)) < 1 := by
            rw [← ten_mul_neg (D : Int)]
            exact mul_lt_mul_of_pos_right hvD (pow10_pos _)
          have h8 : (f.mag n * 10 ^ (-(D : Int))).floor < 1 := by
            rw [rat_floor_eq]; exact Int.floor_lt.2 (by exact_mod_cast h7)
          omega
        omega
    · exact absurd h' (h4 e' hlt hle m')
  by_contra hlt
  have hlt : (Nat.digits 10 m').length < (Nat.digits 10 m).length := by omega
  have hm := hpos h1
  have hm' := hpos h'
  have hd' : 1 ≤ (Nat.digits 10 m').length := by
    have := Nat.lt_base_pow_length_digits (b := 10) (m := m') (by norm_num)
    rcases Nat.eq_zero_or_pos (Nat.digits 10 m').length with h | h
    · rw [h] at this; omega
    · exact h
  obtain ⟨k, hk⟩ : ∃ k, (Nat.digits 10 m).length = k + 1 := ⟨(Nat.digits 10 m).length - 1, by omega⟩
  have hlow : 10 ^ k ≤ m := by
    have := Nat.base_pow_length_digits_le 10 m (by norm_num) (by omega)
    rw [hk, pow_succ] at this
    omega
  have hm1 : 1 < m := by
    have : 10 ^ 1 ≤ 10 ^ k := Nat.pow_le_pow_right (by norm_num) (by omega)
    omega
  have hhigh : m' < 10 ^ k := lt_of_lt_of_le (Nat.lt_base_pow_length_digits (by norm_num)) (Nat.pow_le_pow_right (by norm_num) (by omega))
  rcases Int.lt_or_le r e' with hr | hr
  · exact absurd (hleft m' e' h' hr) (by omega)
  · have : f.ReadsAs 1 ((k : Int) + r) n := by
      refine round_between f hp h' h1 ?_ ?_
      · rw [Nat.cast_one, one_mul, zpow_add₀ (by norm_num), zpow_natCast]
        exact mul_le_mul (by exact_mod_cast hhigh.le) (zpow_le_zpow_right₀ (by norm_num) hr) (pow10_pos _).le (by positivity)
      · rw [Nat.cast_one, one_mul, zpow_add₀ (by norm_num), zpow_natCast]
        exact mul_le_mul_of_nonneg_right (by exact_mod_cast hlow) (pow10_pos _).le
    exact absurd (hleft 1 _ this (by omega)) (by omega)

end

/-! ## Reading -/

theorem spanDigits_append {ds : List Nat} (h : ∀ d ∈ ds, d < 10) {rest : Str} (hr : ∀ c ∈ rest.head?, digitVal c = none) :
    spanDigits (ds.map digitChar ++ rest) = (ds, rest) := by
  induction ds with
  | nil =>
    cases rest with
    | nil => rfl
    | cons c cs => simp [spanDigits, hr c (by simp)]
  | cons d ds ih =>
    have := ih fun x hx => h x (by simp [hx])
    simp only [List.map_cons, List.cons_append, spanDigits, digitVal_digitChar (h d (by simp)), this]

theorem spanDigits_spec (s : Str) : (∀ d ∈ (spanDigits s).1, d < 10) ∧ s = (spanDigits s).1.map digitChar ++ (spanDigits s).2 ∧
    ∀ c ∈ (spanDigits s).2.head?, digitVal c = none := by
  induction s with
  | nil => simp [spanDigits]
  | cons c cs ih =>
    unfold spanDigits
    cases hd : digitVal c with
    | none => simpa using hd
    | some d =>
      obtain ⟨h10, rfl⟩ := digitVal_some hd
      refine ⟨?_, by simpa using ih.2.1, ih.2.2⟩
      intro x hx
      rcases List.mem_cons.1 hx with rfl | hx
      · exact h10
      · exact ih.1 x hx

theorem digitsVal_eq (ds : List Nat) : digitsVal ds = Nat.ofDigits 10 ds.reverse := by
  unfold digitsVal; rw [foldl_ofDigits]; simp

theorem digitsVal_append (a b : List Nat) : digitsVal (a ++ b) = digitsVal a * 10 ^ b.length + digitsVal b := by
  rw [digitsVal_eq, digitsVal_eq b]
  unfold digitsVal
  rw [List.reverse_append, Nat.ofDigits_append, foldl_ofDigits]
  simp [mul_comm, add_comm]

theorem digitsVal_zeros (k : Nat) : digitsVal (List.replicate k 0) = 0 := by
  rw [digitsVal_eq]; simp [Nat.ofDigits_replicate_zero]

theorem expDigits_eq (ds : List Nat) (h : digitsVal ds < 655360) : expDigits ds = digitsVal ds := by
  unfold expDigits digitsVal at *
  suffices ∀ (ds : List Nat) (a : Nat), ds.foldl (fun a d => a * 10 + d) a < 655360 →
      ds.foldl (fun a d => if a < 0x10000 then a * 10 + d else a) a = ds.foldl (fun a d => a * 10 + d) a from this ds 0 h
  intro ds
  induction ds with
  | nil => intro a _; rfl
  | cons d ds ih =>
    intro a ha
    simp only [List.foldl_cons] at ha ⊢
    rw [if_pos, ih _ ha]
    rw [foldl_ofDigits] at ha
    have h1 : 1 ≤ 10 ^ ds.length := Nat.one_le_pow _ _ (by norm_num)
    have h2 : a * 10 + d ≤ (a * 10 + d) * 10 ^ ds.length := Nat.le_mul_of_pos_right _ h1
    omega

/-- A numeral is read as its value. -/
theorem readNumber_digits {i f : List Nat} (hi : ∀ d ∈ i ++ f, d < 10) (hne : i ++ f ≠ []) {point tail : Str}
    (hpt : point = [] ∧ f = [] ∨ point = '.' :: f.map digitChar) {e : Int} (he : readExponent tail = some e) :
    readNumber (i.map digitChar ++ (point ++ tail)) = some ((digitsVal (i ++ f) : ℚ) * 10 ^ (e - f.length)) := by
  have htail : ∀ c ∈ tail.head?, digitVal c = none ∧ c ≠ '.' := by
    intro c hc
    cases tail with
    | nil => simp at hc
    | cons c' cs =>
      obtain rfl : c' = c := by simpa using hc
      simp only [readExponent] at he
      split at he
      · rename_i h; rcases h with rfl | rfl <;> decide
      · cases he
  have hspan : spanDigits (i.map digitChar ++ (point ++ tail)) = (i, point ++ tail) := by
    refine spanDigits_append (fun d hd => hi d (by simp [hd])) ?_
    intro c hc
    rcases hpt with ⟨rfl, rfl⟩ | rfl
    · exact (htail c hc).1
    · simp at hc; subst hc; decide
  have hfrac : readFraction (point ++ tail) = (f, tail) := by
    rcases hpt with ⟨rfl, rfl⟩ | rfl
    · unfold readFraction
      split
      · rename_i cs heq
        rw [List.nil_append] at heq
        exact absurd rfl (htail '.' (by rw [heq]; simp)).2
      · simp
    · simp only [readFraction, List.cons_append]
      exact spanDigits_append (fun d hd => hi d (by simp [hd])) fun c hc => (htail c hc).1
  unfold readNumber
  simp only [hspan, hfrac, if_neg hne, he, Option.map_some, pow10_eq]

theorem showNat_digits (n : Nat) : ∃ ds : List Nat, ds ≠ [] ∧ (∀ d ∈ ds, d < 10) ∧ showNat n = ds.map digitChar ∧ digitsVal ds = n := by
  obtain ⟨ds, h1, h2, h3, h4⟩ := showNat_text n
  exact ⟨ds, h1, h2, h3, by rw [digitsVal_eq, ← h4]⟩

/-- What is written out without exponent is read as its value. -/
theorem readNumber_decimalText (m : Nat) (e : Int) : readNumber (decimalText m e) = some ((m : ℚ) * 10 ^ e) := by
  obtain ⟨ds, hne, h10, hs, hv⟩ := showNat_digits m
  unfold decimalText
  simp only [hs]
  have hz : ∀ k : Nat, List.replicate k '0' = (List.replicate k 0).map digitChar := by
    intro k; rw [List.map_replicate]; rfl
  split
  · rename_i h
    obtain ⟨k, rfl⟩ := Int.eq_ofNat_of_zero_le h
    have := readNumber_digits (i := ds ++ List.replicate k 0) (f := []) (point := []) (tail := []) (e := 0) (by
      intro d hd
      simp only [List.append_nil, List.mem_append, List.mem_replicate] at hd
      rcases hd with hd | ⟨_, rfl⟩
      · exact h10 d hd
      · norm_num) (by simp [hne]) (.inl ⟨rfl, rfl⟩) rfl
    simp only [Int.toNat_natCast, hz, ← List.map_append]
    simp only [List.append_nil] at this
    rw [this, digitsVal_append, digitsVal_zeros, hv]
    simp
  · rename_i h
    obtain ⟨k, hk⟩ := Int.eq_ofNat_of_zero_le (a := -e) (by omega)
    obtain rfl : e = -(k : Int) := by omega
    simp only [neg_neg, Int.toNat_natCast, List.length_map]
    split
    · rename_i hlt
      have := readNumber_digits (i := ds.take (ds.length - k)) (f := ds.drop (ds.length - k))
        (point := '.' :: (ds.drop (ds.length - k)).map digitChar) (tail := []) (e := 0) (by
          rw [List.take_append_drop]; exact h10) (by rw [List.take_append_drop]; exact hne) (.inr rfl) rfl
      rw [List.take_append_drop, hv, List.append_nil] at this
      rw [← List.map_take, ← List.map_drop, this]
      simp only [List.length_drop]
      congr 2
      congr 1
      omega
    · rename_i hge
      have := readNumber_digits (i := [0]) (f := List.replicate (k - ds.length) 0 ++ ds)
        (point := '.' :: (List.replicate (k - ds.length) 0 ++ ds).map digitChar) (tail := []) (e := 0) (by
          intro d hd
          simp only [List.mem_append, List.mem_replicate, List.mem_singleton] at hd
          rcases hd with rfl | ⟨_, rfl⟩ | hd
          · norm_num
          · norm_num
          · exact h10 d hd) (by simp) (.inr rfl) rfl
      rw [hz, ← List.map_append]
      rw [List.append_nil, digitsVal_append, digitsVal_append, digitsVal_zeros, hv] at this
      refine this.trans ?_
      simp only [List.length_append, List.length_replicate]
      rw [show k - ds.length + ds.length = k by omega]
      simp [digitsVal]

/-- The characters of a number written out. -/
theorem decimalText_chars {m : Nat} {e : Int} : decimalText m e ≠ [] ∧ (∀ c ∈ decimalText m e, c = '.' ∨ ∃ d < 10, c = digitChar d) ∧
    ∀ c ∈ (decimalText m e).head?, ∃ d < 10, c = digitChar d := by
  obtain ⟨ds, hne, h10, hs, -⟩ := showNat_digits m
  have hch : ∀ c ∈ showNat m, ∃ d < 10, c = digitChar d := by
    intro c hc; rw [hs] at hc
    obtain ⟨d, hd, rfl⟩ := List.mem_map.1 hc
    exact ⟨d, h10 d hd, rfl⟩
  have hz : ∀ {k c}, c ∈ List.replicate k '0' → ∃ d < 10, c = digitChar d := by
    intro k c hc
    rw [List.mem_replicate] at hc
    exact ⟨0, by norm_num, hc.2⟩
  have hne' : showNat m ≠ [] := by rw [hs]; simpa using hne
  unfold decimalText
  simp only
  split
  · refine ⟨by simp [hne'], fun c hc => .inr ?_, fun c hc => ?_⟩
    · rcases List.mem_append.1 hc with hc | hc
      · exact hch c hc
      · exact hz hc
    · have := List.mem_of_mem_head? hc
      rcases List.mem_append.1 this with hc | hc
      · exact hch c hc
      · exact hz hc
  · split
    · rename_i hlt
      refine ⟨by simp, fun c hc => ?_, fun c hc => ?_⟩
      · rcases List.mem_append.1 hc with hc | hc
        · exact .inr (hch c (List.mem_of_mem_take hc))
        · rcases List.mem_cons.1 hc with rfl | hc
          · exact .inl rfl
          · exact .inr (hch c (List.mem_of_mem_drop hc))
      · rename_i hneg
        have hpos : 0 < (showNat m).length - (-e).toNat := by omega
        cases hsm : showNat m with
        | nil => exact absurd hsm hne'
        | cons a l =>
          rw [hsm] at hc hpos
          obtain ⟨j, hj⟩ : ∃ j, (a :: l).length - (-e).toNat = j + 1 := ⟨(a :: l).length - (-e).toNat - 1, by omega⟩
          rw [hj] at hc
          simp at hc
          exact hch c (by rw [hsm, ← hc]; simp)
    · refine ⟨by simp, fun c hc => ?_, fun c hc => ?_⟩
      · rcases List.mem_cons.1 hc with rfl | hc
        · exact .inr ⟨0, by norm_num, rfl⟩
        · rcases List.mem_cons.1 hc with rfl | hc
          · exact .inl rfl
          · rcases List.mem_append.1 hc with hc | hc
            · exact .inr (hz hc)
            · exact .inr (hch c hc)
      · simp at hc
        exact ⟨0, by norm_num, hc.symm⟩

theorem splitSign_plain {s : Str} (h : ∀ c ∈ s.head?, ∃ d < 10, c = digitChar d) : splitSign s = (false, s) := by
  cases s with
  | nil => rfl
  | cons c cs =>
    obtain ⟨d, hd, rfl⟩ := h c (by simp)
    have := digitChar_props hd
    simp only [splitSign]
    rw [if_neg this.2.2.2.1, if_neg this.2.2.1]

/-- A float is read back from what is printed. -/
theorem parseFloat_showFloat (f : Fmt) (hp : 1 ≤ f.p) (he : f.emin ≤ 0) {x : Fl} (hx : f.Valid x) : parseFloat f (showFloat f x) = some x := by
  cases x with
  | nan => rfl
  | num s n =>
    have key : ∀ t : Str, splitSign t = (false, t) → readNumber t = some (f.mag n) → f.round (f.mag n) = n →
        parseFloat f ((if s then ['-'] else []) ++ t) = some (.num s n) := by
      intro t h1 h2 h3
      cases s
      · simp [parseFloat, h1, h2, h3]
      · have : splitSign ('-' :: t) = (true, t) := rfl
        simp [parseFloat, this, h2, h3]
    simp only [showFloat]
    by_cases hi : f.isInf n = true
    · have : n = f.infBits := le_antisymm hx (by simpa [Fmt.isInf] using hi)
      subst this
      simp only [hi, if_true]
      cases s <;> rfl
    · rw [if_neg hi]
      by_cases h0 : n = 0
      · subst h0
        rw [if_pos rfl]
        refine key _ rfl ?_ (by rw [mag_zero, round_zero])
        rw [mag_zero]
        have h00 : decimalText 0 0 = ['0'] := by decide +kernel
        simpa [h00] using readNumber_decimalText 0 0
      · rw [if_neg h0]
        have hr := shortest_reads f hp he (n := n) hx
        have h2 := readNumber_decimalText (shortest f n).1 (shortest f n).2
        have h1 := splitSign_plain (decimalText_chars (m := (shortest f n).1) (e := (shortest f n).2)).2.2
        cases s
        · simp only [Bool.false_eq_true, if_false, List.nil_append, parseFloat, h1, h2]
          rw [hr]
        · have : splitSign ('-' :: decimalText (shortest f n).1 (shortest f n).2) = (true, decimalText (shortest f n).1 (shortest f n).2) := rfl
          simp only [if_true, List.singleton_append, parseFloat, this, h2]
          rw [hr]

/-- A printed float is one word without reserved characters. -/
theorem showFloat_plain (f : Fmt) (x : Fl) : PlainText (showFloat f x) := by
  cases x with
  | nan => exact ⟨by simp [showFloat], by simp only [showFloat]; decide⟩
  | num s n =>
    have key : ∀ t : Str, PlainText t → PlainText ((if s then ['-'] else []) ++ t) := by
      intro t ht
      refine ⟨by simp [ht.1], fun c hc => ?_⟩
      rcases List.mem_append.1 hc with hc | hc
      · cases s
        · simp at hc
        · obtain rfl : c = '-' := by simpa using hc
          decide
      · exact ht.2 c hc
    unfold showFloat
    refine key _ ?_
    split
    · exact ⟨by decide, by decide⟩
    · split
      · exact ⟨by decide, by decide⟩
      · refine ⟨decimalText_chars.1, fun c hc => ?_⟩
        rcases decimalText_chars.2.1 c hc with rfl | ⟨d, hd, rfl⟩
        · decide
        · exact ⟨(digitChar_props hd).1, (digitChar_props hd).2.1⟩

/-! ## The grammar -/

theorem signedText_iff {s t : Str} {neg : Bool} : SignedText s neg t ↔ splitSign s = (neg, t) := by
  unfold SignedText
  cases s with
  | nil =>
    simp only [splitSign, Prod.mk.injEq]
    constructor
    · rintro (⟨rfl, rfl, _⟩ | ⟨_, h⟩ | ⟨_, h⟩)
      · exact ⟨rfl, rfl⟩
      · cases h
      · cases h
    · rintro ⟨rfl, rfl⟩
      exact .inl ⟨rfl, rfl, by simp, by simp⟩
  | cons c cs =>
    simp only [splitSign]
    by_cases h1 : c = '-'
    · subst h1
      simp only [if_true, Prod.mk.injEq]
      constructor
      · rintro (⟨rfl, rfl, _, h⟩ | ⟨_, h⟩ | ⟨rfl, h⟩)
        · exact absurd rfl h
        · simp at h
        · simp at h; exact ⟨rfl, h⟩
      · rintro ⟨rfl, rfl⟩
        exact .inr (.inr ⟨rfl, rfl⟩)
    · rw [if_neg h1]
      by_cases h2 : c = '+'
      · subst h2
        simp only [if_true, Prod.mk.injEq]
        constructor
        · rintro (⟨rfl, rfl, h, _⟩ | ⟨rfl, h⟩ | ⟨_, h⟩)
          · exact absurd rfl h
          · simp at h; exact ⟨rfl, h⟩
          · simp at h
        · rintro ⟨rfl, rfl⟩
          exact .inr (.inl ⟨rfl, rfl⟩)
      · rw [if_neg h2]
        simp only [Prod.mk.injEq]
        constructor
        · rintro (⟨rfl, rfl, _⟩ | ⟨_, h⟩ | ⟨_, h⟩)
          · exact ⟨rfl, rfl⟩
          · simp [h2] at h
          · simp [h1] at h
        · rintro ⟨rfl, rfl⟩
          exact .inl ⟨rfl, rfl, by simpa using h2, by simpa using h1⟩

theorem intNumeral_iff {s : Str} {i : Int} : IntNumeral s i ↔ ∃ n : Nat, DigitText (splitSign s).2 n ∧ i = if (splitSign s).1 then -(n : Int) else n := by
  constructor
  · rintro ⟨n, ⟨h, rfl⟩ | ⟨cs, rfl, h, rfl⟩ | ⟨cs, rfl, h, rfl⟩⟩
    · have : splitSign s = (false, s) := splitSign_plain fun c hc => digitText_chars h (List.mem_of_mem_head? hc)
      rw [this]; exact ⟨n, h, rfl⟩
    · exact ⟨n, h, rfl⟩
    · exact ⟨n, h, rfl⟩
  · rintro ⟨n, h, rfl⟩
    have := signedText_iff.2 (show splitSign s = ((splitSign s).1, (splitSign s).2) from rfl)
    rcases this with ⟨h1, h2, _⟩ | ⟨h1, h2⟩ | ⟨h1, h2⟩
    · rw [← h2] at h
      exact ⟨n, .inl ⟨h, by simp [h1]⟩⟩
    · exact ⟨n, .inr (.inl ⟨_, h2, h, by simp [h1]⟩)⟩
    · exact ⟨n, .inr (.inr ⟨_, h2, h, by simp [h1]⟩)⟩

/-- The exponent of a numeral, unless absurdly large, is read as its value. -/
theorem readScientific_of {s : Str} {i : Int} (h : IntNumeral s i) : ∃ e, readScientific s = some e ∧ (|i| < 655360 → e = i) := by
  obtain ⟨n, ⟨ds, hne, h10, hs, hv⟩, rfl⟩ := intNumeral_iff.1 h
  have hspan : spanDigits (splitSign s).2 = (ds, []) := by
    rw [hs]
    simpa using spanDigits_append h10 (rest := []) (by simp)
  unfold readScientific
  rw [hspan]
  cases ds with
  | nil => exact absurd rfl hne
  | cons d ds =>
    refine ⟨_, rfl, fun hb => ?_⟩
    have hb : n < 655360 := by
      split at hb
      · rw [abs_neg, abs_of_nonneg (by positivity)] at hb; omega
      · rw [abs_of_nonneg (by positivity)] at hb; omega
    rw [expDigits_eq _ (by rw [digitsVal_eq, ← hv]; exact hb), digitsVal_eq, ← hv]

theorem readScientific_some {s : Str} {e : Int} (h : readScientific s = some e) : ∃ i, IntNumeral s i := by
  unfold readScientific at h
  split at h
  · rename_i d ds hspan
    obtain ⟨h10, hs, -⟩ := spanDigits_spec (splitSign s).2
    rw [hspan] at h10 hs
    exact ⟨_, intNumeral_iff.2 ⟨_, ⟨d :: ds, by simp, h10, by simpa using hs, rfl⟩, rfl⟩⟩
  · cases h

/-- A decimal numeral is read as its value. -/
theorem readNumber_of {s : Str} {e : Int} {q : ℚ} (h : DecimalNumeral s e q) : ∃ q', readNumber s = some q' ∧ (|e| < 655360 → q' = q) := by
  obtain ⟨i, f, point, exponent, rfl, hpt, h10, hne, hexp, rfl⟩ := h
  obtain ⟨e', he', heq⟩ : ∃ e', readExponent exponent = some e' ∧ (|e| < 655360 → e' = e) := by
    rcases hexp with ⟨rfl, rfl⟩ | ⟨c, t, rfl, hc, ht⟩
    · exact ⟨0, rfl, fun _ => rfl⟩
    · obtain ⟨e', h1, h2⟩ := readScientific_of ht
      exact ⟨e', by simp [readExponent, hc, h1], h2⟩
  refine ⟨_, readNumber_digits h10 hne hpt he', fun hb => ?_⟩
  rw [heq hb, digitsVal_eq]

theorem readNumber_some {s : Str} {q : ℚ} (h : readNumber s = some q) : ∃ e q', DecimalNumeral s e q' := by
  unfold readNumber at h
  simp only at h
  split at h
  · cases h
  · rename_i hne
    obtain ⟨e, he, -⟩ := Option.map_eq_some_iff.1 h
    obtain ⟨h1, h2, -⟩ := spanDigits_spec s
    obtain ⟨point, hpt, h3, h4⟩ : ∃ point, (point = [] ∧ (readFraction (spanDigits s).2).1 = [] ∨
        point = '.' :: (readFraction (spanDigits s).2).1.map digitChar) ∧ (spanDigits s).2 = point ++ (readFraction (spanDigits s).2).2 ∧
        ∀ d ∈ (readFraction (spanDigits s).2).1, d < 10 := by
      unfold readFraction
      split
      · rename_i cs heq
        obtain ⟨h5, h6, -⟩ := spanDigits_spec cs
        exact ⟨_, .inr rfl, by rw [heq]; simpa using h6, h5⟩
      · exact ⟨[], .inl ⟨rfl, rfl⟩, rfl, by simp⟩
    obtain ⟨i, hi⟩ : ∃ i : Int, (readFraction (spanDigits s).2).2 = [] ∧ i = 0 ∨
        ∃ c t, (readFraction (spanDigits s).2).2 = c :: t ∧ (c = 'e' ∨ c = 'E') ∧ IntNumeral t i := by
      generalize (readFraction (spanDigits s).2).2 = tail at he
      cases tail with
      | nil => exact ⟨0, .inl ⟨rfl, rfl⟩⟩
      | cons c t =>
        simp only [readExponent] at he
        split at he
        · rename_i hc
          obtain ⟨i, hi⟩ := readScientific_some he
          exact ⟨i, .inr ⟨c, t, rfl, hc, hi⟩⟩
        · cases he
    refine ⟨i, _, (spanDigits s).1, (readFraction (spanDigits s).2).1, point, (readFraction (spanDigits s).2).2, ?_, hpt, ?_, hne, hi, rfl⟩
    · rw [← h3]; exact h2
    · intro d hd
      rcases List.mem_append.1 hd with hd | hd
      · exact h1 d hd
      · exact h4 d hd

/-- core reads back the floats it prints. -/
theorem coreText_roundTrips : coreText.RoundTrips where
  parse_show t x h := parseFloat_showFloat t.fmt (fmt_p t) (by cases t <;> decide) h
  show_plain t x _ := showFloat_plain t.fmt x

end Diman
