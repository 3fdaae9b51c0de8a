import Verif.Props.C64
/-!
# C64 — texts read as single-precision quantities
-/
set_option linter.unusedSectionVars false
namespace Diman
open LawfulExponent

/-- Rounding to single precision, away from overflow and underflow. -/
theorem round_single {q : ℚ} (h1 : pow2 (-120) ≤ q) (h2 : q ≤ pow2 120) :
    f32Fmt.round q < f32Fmt.infBits ∧ |f32Fmt.mag (f32Fmt.round q) - q| ≤ 1 / 2 ^ 24 * q := by
  have hq : 0 < q := lt_of_lt_of_le (pow2_pos _) h1
  have hr : f32Fmt.round q < f32Fmt.infBits := by
    refine (round_bound .f32 hq.le ?_).1
    have : (q : ℝ) ≤ ((pow2 120 : ℚ) : ℝ) := by exact_mod_cast h2
    rw [pow2_real] at this
    refine lt_of_le_of_lt this ?_
    simp only [FloatTy.large]
    norm_num
  refine ⟨hr, ?_⟩
  have := round_rel_err f32Fmt (by decide) (q := q) (le_trans (pow2_le.2 (by decide)) h1) hr
  rwa [show pow2 (-(f32Fmt.p : Int)) = 1 / 2 ^ 24 by rw [pow2_eq]; norm_num [f32Fmt]] at this

/-- Single precision has room: the number is between `2^-100` and `2^100`. -/
def single (q : ℚ) : Prop := 1 / 2 ^ 100 ≤ |q| ∧ |q| ≤ 2 ^ 100

instance (q : ℚ) : Decidable (single q) := by unfold single; infer_instance

/-- A double with the value `V`, converted to single precision. -/
theorem convert_single {F : Fl} {V : ℚ} (hF : f64Fmt.val F = some V) (h1 : pow2 (-110) ≤ |V|) (h2 : |V| ≤ pow2 110) :
    ∃ W, f32Fmt.val (Fmt.convert f64Fmt f32Fmt F) = some W ∧ |W - V| ≤ 1 / 2 ^ 24 * |V| := by
  obtain ⟨s, n, rfl, hn, rfl⟩ := fmtVal_inv hF
  have hm := mag_nonneg f64Fmt n
  have ha : |if s = true then -f64Fmt.mag n else f64Fmt.mag n| = f64Fmt.mag n := by cases s <;> simp [abs_of_nonneg hm]
  rw [ha] at h1 h2 ⊢
  obtain ⟨r1, r2⟩ := round_single (q := f64Fmt.mag n) (le_trans (pow2_le.2 (by norm_num)) h1) (le_trans h2 (pow2_le.2 (by norm_num)))
  have hi : f64Fmt.isInf n = false := by simp [Fmt.isInf]; exact hn
  simp only [Fmt.convert, hi, Bool.false_eq_true, if_false]
  refine ⟨_, fmtVal_num _ r1, ?_⟩
  cases s
  · simpa using r2
  · simp only [if_true]
    rwa [← neg_add', abs_neg, ← sub_eq_add_neg] at *

/-- A product in single precision. -/
theorem mul_single {x y : Fl} {a b : ℚ} (hx : f32Fmt.val x = some a) (hy : f32Fmt.val y = some b) (h1 : pow2 (-110) ≤ |a * b|) (h2 : |a * b| ≤ pow2 110) :
    ∃ v, f32Fmt.val (f32Fmt.mul x y) = some v ∧ |v - a * b| ≤ 1 / 2 ^ 24 * |a * b| := by
  obtain ⟨s, n, rfl, hn, rfl⟩ := fmtVal_inv hx
  obtain ⟨s', n', rfl, hn', rfl⟩ := fmtVal_inv hy
  have hm := mag_nonneg f32Fmt n
  have hm' := mag_nonneg f32Fmt n'
  rw [sign_mul] at *
  have ha : |if (s != s') = true then -(f32Fmt.mag n * f32Fmt.mag n') else f32Fmt.mag n * f32Fmt.mag n'| = f32Fmt.mag n * f32Fmt.mag n' := by
    split <;> simp [abs_of_nonneg hm, abs_of_nonneg hm', abs_mul]
  rw [ha] at h1 h2 ⊢
  obtain ⟨r1, r2⟩ := round_single (le_trans (pow2_le.2 (by norm_num)) h1) (le_trans h2 (pow2_le.2 (by norm_num)))
  rw [mul_num _ hn hn']
  refine ⟨_, fmtVal_num _ r1, ?_⟩
  split
  · rwa [← neg_add', abs_neg, ← sub_eq_add_neg]
  · exact r2

theorem number_holds_single {E : Type} [Exponent E] [MagOps E Magnitude] {c : Nat} (hc1 : 1 ≤ c) {us : UnitPowers E Magnitude} {ts : List SiTerm}
    (P : PlatformFns) (T : FloatText) (hpow : PowHolds E P.lib c)
    (h : List.Forall₂ (fun ue t => Holds (ue.1.mag.intoF64 P.lib) (c * 17) t.unit ∧ ue.2 = t.power) us ts)
    {x : Fl} {q : ℚ} (hx : f32Fmt.val x = some q) (hq : Comfortable q ts) (hn : c * siRoundings ts ≤ 2 ^ 20) (h1 : single (siSize ts))
    (h2 : single (q * siSize ts)) :
    letI := softPrims P; letI := softText T
    ∃ v, f32Fmt.val (f32Fmt.mul x (Fmt.convert f64Fmt f32Fmt (UnitPowers.factor Fl us))) = some v ∧
      |v - q * siSize ts| ≤ 1 / 2 ^ 22 * |q * siSize ts| := by
  let := softPrims P; let := softText T
  obtain ⟨c1, c2, c3, c4⟩ := hq
  have e0 : c * siRoundings ts = c * (ts.map fun t => 18 * t.power.natAbs + 2).sum + c := by unfold siRoundings; ring
  have hf := terms_hold hc1 hpow h (f := f64Fmt.ofInt 1) (n := 0) (p := 1) holds_one (by omega) c2 (fun k => by rw [one_mul]; exact c3 k)
  rw [one_mul, Nat.zero_add] at hf
  have ef : (UnitPowers.factor Fl us : Fl) = us.foldl (fun f ue => f64Fmt.mul f
      ((MagOps.pow (Magnitude.fromF64 (ue.1.mag.intoF64 P.lib)) (Exponent.ofInt ue.2 : E) : Magnitude).intoF64 P.lib)) (f64Fmt.ofInt 1) := rfl
  rw [ef]
  generalize us.foldl _ _ = F at hf
  obtain ⟨V, hV, hcl, _⟩ := hf
  have herr := (hcl.mono (show _ ≤ 2 ^ 20 by omega)).err (by norm_num)
  rw [show pow2 (-52) = 1 / 2 ^ 52 by rw [pow2_eq]; norm_num] at herr
  generalize siSize ts = S at *
  have hVS : |V - S| ≤ 1 / 2 ^ 32 * |S| := le_trans herr (le_of_eq (by push_cast; ring))
  have tri : ∀ a b : ℚ, |a| ≤ |b| + |a - b| ∧ |b| ≤ |a| + |a - b| := fun a b =>
    ⟨by have := abs_add_le b (a - b); simpa using this, by
      have := abs_add_le a (b - a); rw [abs_sub_comm b a] at this; simpa using this⟩
  have p110 : pow2 110 = 2 ^ 110 := by rw [pow2_eq]; norm_num
  have m110 : pow2 (-110) = 1 / 2 ^ 110 := by rw [pow2_eq]; norm_num
  obtain ⟨s1, s2⟩ := h1
  obtain ⟨s3, s4⟩ := h2
  have V1 := (tri V S).1
  have V2 := (tri V S).2
  obtain ⟨W, hW, hWV⟩ := convert_single hV (by rw [m110]; norm_num at s1 hVS ⊢; linarith) (by rw [p110]; norm_num at s2 hVS ⊢; linarith)
  have W1 := (tri W V).1
  have W2 := (tri W V).2
  have eS : |q * S| = |q| * |S| := abs_mul _ _
  have eW : |q * W| = |q| * |W| := abs_mul _ _
  have q0 := abs_nonneg q
  have hW1 : |q| * |W| ≤ (1 + 1 / 2 ^ 23) * (|q| * |S|) := by
    rw [mul_left_comm]
    refine mul_le_mul_of_nonneg_left ?_ q0
    have := abs_nonneg S
    norm_num at hWV hVS ⊢
    linarith
  have hW2 : (1 - 1 / 2 ^ 23) * (|q| * |S|) ≤ |q| * |W| := by
    rw [mul_left_comm]
    refine mul_le_mul_of_nonneg_left ?_ q0
    have := abs_nonneg S
    norm_num at hWV hVS ⊢
    linarith
  rw [eS] at s3 s4
  obtain ⟨v, hv, hvW⟩ := mul_single hx hW (by rw [m110, eW]; norm_num at s3 hW2 ⊢; linarith) (by rw [p110, eW]; norm_num at s4 hW1 ⊢; linarith)
  refine ⟨v, hv, ?_⟩
  have hWS : |W - S| ≤ (1 / 2 ^ 24 + 1 / 2 ^ 30) * |S| := by
    have := abs_add_le (W - V) (V - S)
    rw [sub_add_sub_cancel] at this
    have := abs_nonneg S
    norm_num at hWV hVS ⊢
    linarith
  have hq2 : |q * W - q * S| ≤ (1 / 2 ^ 24 + 1 / 2 ^ 30) * (|q| * |S|) := by
    rw [← mul_sub, abs_mul, mul_left_comm]
    exact mul_le_mul_of_nonneg_left hWS q0
  have := abs_add_le (v - q * W) (q * W - q * S)
  rw [sub_add_sub_cancel] at this
  rw [eW] at hvW
  rw [eS]
  have := mul_nonneg q0 (abs_nonneg S)
  norm_num at hvW hW1 hq2 ⊢
  linarith

section
variable {E : Type} [Exponent E] [LawfulExponent E] [FieldOps E] [LawfulFieldOps E] [TotalFields E] [WrittenExponent E] [ReadExponent E] [MagOps E Magnitude]

/-- What is read in single precision, for any kind of exponents. -/
theorem si_reading_single (P : PlatformFns) (T : FloatText) {c : Nat} (hc1 : 1 ≤ c) (hpow : PowHolds E P.lib c) {t : UnresolvedTemplates E Magnitude}
    {defs : Defs E Magnitude} {A : Int → ℚ → Magnitude → Prop}
    (F : SiFacts Number.magnitude Prefix.factor (fun k q m => Holds (m.intoF64 P.lib) (c * 17) (10 ^ k * q) ∧ A k q m) t defs)
    (literals : (UnresolvedTemplates.expand (MagOps.one E) Prefix.factor t).LitExponents (WrittenExponent.Ok : E → Prop))
    (s : Storage) (target : DimVal E) (canonical : target.Canonical) (text : Str) (r : Raw Fl) (hs : s.base = .f32)
    (run : letI := softPrims P; letI := softText T; deserializeStr Magnitude defs s target text = some (.ok r)) :
    ∃ (nums ws : List Str) (xs : List Fl),
      (if s.isFloat then ∃ num, nums = [num] ∧ Words text (num :: ws)
        else ∃ pre inside post, text = pre ++ '(' :: (inside ++ ')' :: post) ∧ Words inside nums ∧ Words post ws) ∧
      List.Forall₂ (fun w x => T.parseF .f32 w = some x) nums xs ∧ (∃ ts, List.Forall₂ (fun w t => SiTerm.WrittenAs t w) ws ts) ∧
      ∀ ts, List.Forall₂ (fun w t => SiTerm.WrittenAs t w) ws ts →
        target.vec = siBaseFields.map (siDim ts) ∧
        List.Forall₂ (fun x y => ∀ q, f32Fmt.val x = some q → Comfortable q ts → c * siRoundings ts ≤ 2 ^ 20 →
          single (siSize ts) → single (q * siSize ts) → ∃ v, f32Fmt.val y = some v ∧ |v - q * siSize ts| ≤ 1 / 2 ^ 22 * |q * siSize ts|) xs r := by
  let := softPrims P; let := softText T
  -- one way to take the words for units is enough
  suffices H : ∃ (nums ws : List Str) (xs : List Fl) (ts : List SiTerm),
          (if s.isFloat then ∃ num, nums = [num] ∧ Words text (num :: ws)
            else ∃ pre inside post, text = pre ++ '(' :: (inside ++ ')' :: post) ∧ Words inside nums ∧ Words post ws) ∧
          List.Forall₂ (fun w x => T.parseF .f32 w = some x) nums xs ∧ List.Forall₂ (fun w t => SiTerm.WrittenAs t w) ws ts ∧
          target.vec = siBaseFields.map (siDim ts) ∧
          List.Forall₂ (fun x y => ∀ q, f32Fmt.val x = some q → Comfortable q ts → c * siRoundings ts ≤ 2 ^ 20 →
            single (siSize ts) → single (q * siSize ts) → ∃ v, f32Fmt.val y = some v ∧ |v - q * siSize ts| ≤ 1 / 2 ^ 22 * |q * siSize ts|) xs r by
    obtain ⟨nums, ws, xs, ts, a1, a2, a3, a4, a5⟩ := H
    refine ⟨nums, ws, xs, a1, a2, ⟨ts, a3⟩, fun ts' a3' => ?_⟩
    obtain ⟨m1, m2⟩ := C64_one_meaning _ _ _ a3 a3'
    obtain ⟨m3, m4⟩ := same_terms a3 a3'
    refine ⟨a4.trans (List.map_congr_left fun k _ => m2 k), a5.imp fun x y hxy q hq hc hn w1 w2 => ?_⟩
    obtain ⟨v, v1, v2⟩ := hxy q hq (hc.of_sizes m3.symm) (by rw [m4]; exact hn) (by rw [m1]; exact w1) (by rw [m1]; exact w2)
    exact ⟨v, v1, by rw [← m1]; exact v2⟩
  have hterms : ∀ U ∈ defs.units, ∀ sym, U.symbol = some sym → ∃ r ∈ siUnits, ∃ pre sym', r.symbol = some sym' ∧ sym = (siPrefix? pre).symbol ++ sym' ∧
      (∀ k, U.dims.expo k = r.dim.of k) ∧ ∀ e, Holds (U.mag.intoF64 P.lib) (c * 17) (SiTerm.unit ⟨r, pre, e⟩) := by
    intro U hU sym hsym
    obtain ⟨r, hr, pre, e1, e2, e3⟩ := F.units U hU
    rcases e3 with e3 | e3
    · rw [hsym] at e3; cases e3
    · rw [hsym] at e3
      obtain ⟨sym', hsym', e⟩ := Option.map_eq_some_iff.1 e3.symm
      exact ⟨r, hr, pre, sym', hsym', e.symm, e1, fun _ => e2.1⟩
  cases hf : s.isFloat with
  | true =>
    obtain ⟨num, ws, hw, x, hx, us, g1, g2, rfl⟩ := (C28_float_iff Prefix.factor t defs F.run literals s hf target canonical text
      _ run (by simp) r).1 rfl
    obtain ⟨ts, k1, k2, k3⟩ := terms_of_units (V := fun U t => Holds (U.mag.intoF64 P.lib) (c * 17) t.unit) hterms g1
    refine ⟨[num], ws, [x], ts, ?_, .cons (hs ▸ hx) .nil, k1, ?_, .cons ?_ .nil⟩
    · exact ⟨num, rfl, hw⟩
    · rw [← F.base]
      exact g2.trans (List.map_congr_left fun k _ => k2 k)
    · intro q hq hc hn w1 w2
      have := number_holds_single hc1 P T hpow k3 hq hc hn w1 w2
      rw [hs]
      exact this
  | false =>
    obtain ⟨pre, inside, post, c1, _, _, _, nums, hnums, hlen, xs, hxs, ws, hws, us, g1, g2, rfl⟩ :=
      (C30_vector_iff Prefix.factor t defs F.run literals s hf target canonical text _ run (by simp) r).1 rfl
    obtain ⟨ts, k1, k2, k3⟩ := terms_of_units (V := fun U t => Holds (U.mag.intoF64 P.lib) (c * 17) t.unit) hterms g1
    refine ⟨nums, ws, xs, ts, ⟨pre, inside, post, c1, hnums, hws⟩, hs ▸ hxs, k1, ?_, ?_⟩
    · rw [← F.base]
      exact g2.trans (List.map_congr_left fun k _ => k2 k)
    · rw [List.forall₂_map_right_iff, List.forall₂_same]
      intro x _ q hq hc hn w1 w2
      have := number_holds_single hc1 P T hpow k3 hq hc hn w1 w2
      rw [hs]
      obtain ⟨v, hv, h⟩ := this
      refine ⟨v, ?_, h⟩
      rw [← hv, Fmt.mul_comm f32Fmt x _ (FloatTy.fmt_inf .f32)]
      rfl
end

/-- **C64, single precision.** The same as `C64_si` for quantities of single-precision storage (`f32`, `Vec2`, `Vec3`): every stored number is the number in
the text times the exact size of the units, up to a relative error of `2^-22`, provided that size and the result are between `2^-100` and `2^100` (and
nothing comes near overflow on the way, and there are not absurdly many units). -/
theorem C64_si_single (std : Bool) (powf : Fl → Fl → Fl) (P : PlatformFns) (hP : P.lib = buildLib std powf) (T : FloatText) :
    letI := magOpsInt P.lib; letI := softPrims P; letI := softText T
    ∃ tokens defs, lex siLines = some tokens ∧ unitSystem (E := Int) Number.magnitude Prefix.factor tokens = .done (defs, []) ∧
      ∀ (s : Storage) (target : DimVal Int) (text : Str) (r : Raw Fl), s.base = .f32 → deserializeStr Magnitude defs s target text = some (.ok r) →
        ∃ (nums ws : List Str) (xs : List Fl),
          (if s.isFloat then ∃ num, nums = [num] ∧ Words text (num :: ws)
            else ∃ pre inside post, text = pre ++ '(' :: (inside ++ ')' :: post) ∧ Words inside nums ∧ Words post ws) ∧
          List.Forall₂ (fun w x => T.parseF .f32 w = some x) nums xs ∧ (∃ ts, List.Forall₂ (fun w t => SiTerm.WrittenAs t w) ws ts) ∧
          ∀ ts, List.Forall₂ (fun w t => SiTerm.WrittenAs t w) ws ts →
            target.vec = siBaseFields.map (siDim ts) ∧
            List.Forall₂ (fun x y => ∀ q, f32Fmt.val x = some q → Comfortable q ts → (if std then 1 else 2) * siRoundings ts ≤ 2 ^ 20 →
              single (siSize ts) → single (q * siSize ts) → ∃ v, f32Fmt.val y = some v ∧ |v - q * siSize ts| ≤ 1 / 2 ^ 22 * |q * siSize ts|) xs r := by
  have sh := si_holds std powf
  have ci := @C36_int Magnitude (magOpsInt P.lib) Number.magnitude Prefix.factor
  have hpow := powHolds_int std powf
  rw [← hP] at sh hpow
  let := magOpsInt P.lib; let := softPrims P; let := softText T
  obtain ⟨t, defs, F⟩ := si_facts ci sh
  obtain ⟨tokens, h1, h2⟩ := F.text
  exact ⟨tokens, defs, h1, h2, fun s target text r hs run =>
    si_reading_single P T (by cases std <;> decide) hpow F (C18_literals_int _) s target (fun _ _ => trivial) text r hs run⟩

-- The conditions are met by "36 km h^-1": size 1000/3600, result 10.
example : Comfortable 36 C64.kmh ∧ 2 * siRoundings C64.kmh ≤ 2 ^ 20 ∧ single (siSize C64.kmh) ∧ single (36 * siSize C64.kmh) :=
  ⟨C64.kmh_comfortable, by decide +kernel, by decide +kernel, by decide +kernel⟩

end Diman
