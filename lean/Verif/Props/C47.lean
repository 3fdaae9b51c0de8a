import Verif.Props.C46
/-!
# C47: conversion factors are accurate
For every input to the macro, the factors it computes in `f64` are compared with the factors computed from the same input in exact
rational arithmetic. The bound is the number of roundings on the way (one per literal, prefix, product and quotient, `|e|` per power,
counted through all definitions a unit rests on) times `2^-52`.
-/
namespace Diman

/-- The factor stored in `m` is finite and within a relative `n × 2^-52` of `q`. -/
def Accurate (lib : FloatLib) (m : Magnitude) (n : Nat) (q : ℚ) : Prop :=
  ∃ x, f64Fmt.val (m.intoF64 lib) = some x ∧ |x - q| ≤ n / 2 ^ 52 * |q|

theorem Tracks.accurate {lib : FloatLib} {k : Nat} {m : Magnitude} {e : Estimate} (h : Tracks lib k m e) (hr : e.inRange = true)
    (hk : k * e.roundings ≤ 2 ^ 30) : Accurate lib m (k * e.roundings) e.value := by
  obtain ⟨x, hx, hc, _⟩ := (h hr).2 hk
  refine ⟨x, hx, ?_⟩
  have he := hc.err hk
  rw [show pow2 (-52) = 1 / 2 ^ 52 by rw [pow2_eq]; norm_num] at he
  calc _ ≤ _ := he
    _ = _ := by ring

/-- The same for every platform, with its own cost of a power. -/
theorem factors_accurate {lib : FloatLib} {c : Nat} (hl : LibCost lib c) (tokens : List Tok) (defs : Defs Int Magnitude) (errors : List Diag)
    (h : @unitSystem Int Magnitude _ Number.magnitude _ (magOpsInt lib) Prefix.factor tokens = .done (defs, errors)) :
    ∃ (exact : Defs Int ℚ) (books : Defs Int Estimate),
      @unitSystem Int ℚ _ Number.exact _ rationalOps Prefix.literal tokens = .done (exact, errors) ∧
      @unitSystem Int Estimate _ Number.estimate _ estimateOps Prefix.estimate tokens = .done (books, errors) ∧
      defs.dimensions = exact.dimensions ∧
      (∀ (i : Nat) U, defs.units[i]? = some U → ∃ V W, exact.units[i]? = some V ∧ books.units[i]? = some W ∧
        U.name = V.name ∧ V.name = W.name ∧ U.dims = V.dims ∧ U.symbol = V.symbol ∧ U.isBase = V.isBase ∧ W.mag.value = V.mag ∧
        (W.mag.inRange = true → W.mag.roundings ≤ 2 ^ 30 ∧ (c * W.mag.roundings ≤ 2 ^ 30 → Accurate lib U.mag (c * W.mag.roundings) V.mag))) ∧
      (∀ (i : Nat) C, defs.constants[i]? = some C → ∃ V W, exact.constants[i]? = some V ∧ books.constants[i]? = some W ∧
        C.name = V.name ∧ V.name = W.name ∧ C.dims = V.dims ∧ W.mag.value = V.mag ∧
        (W.mag.inRange = true → W.mag.roundings ≤ 2 ^ 30 ∧ (c * W.mag.roundings ≤ 2 ^ 30 → Accurate lib C.mag (c * W.mag.roundings) V.mag))) := by
  let mag : Number → Tracked lib c := fun n => ⟨(n.magnitude, n.estimate), tracks_number hl.toLibStores n⟩
  let factor : Prefix → Tracked lib c := fun p => ⟨(p.factor, p.estimate), tracks_prefix hl.toLibStores p⟩
  have e1 : (fun t : Tracked lib c => t.1.2) ∘ mag = Number.estimate := funext fun _ => rfl
  have e2 : (fun t : Tracked lib c => t.1.2) ∘ factor = Prefix.estimate := funext fun _ => rfl
  have e3 : (fun t : Tracked lib c => t.1.1) ∘ mag = Number.magnitude := funext fun _ => rfl
  have e4 : (fun t : Tracked lib c => t.1.1) ∘ factor = Prefix.factor := funext fun _ => rfl
  have e5 : Estimate.value ∘ Number.estimate = Number.exact := funext fun _ => rfl
  have e6 : Estimate.value ∘ Prefix.estimate = Prefix.literal := funext fun _ => rfl
  have n1 := @unitSystem_mapMag Int (Tracked lib c) Magnitude _ _ (trackedOps hl) (magOpsInt lib) (fun t => t.1.1) (hom_fst hl)
    mag factor tokens
  have n2 := @unitSystem_mapMag Int (Tracked lib c) Estimate _ _ (trackedOps hl) estimateOps (fun t => t.1.2) (hom_snd hl)
    mag factor tokens
  have n3 := @unitSystem_mapMag Int Estimate ℚ _ _ estimateOps rationalOps Estimate.value hom_value Number.estimate Prefix.estimate tokens
  rw [e3, e4, h] at n1
  rw [e1, e2] at n2
  rw [e5, e6] at n3
  cases ht : @unitSystem Int (Tracked lib c) _ mag _ (trackedOps hl) factor tokens with
  | syntaxError => rw [ht] at n1; simp at n1
  | panic => rw [ht] at n1; simp at n1
  | done r =>
    obtain ⟨td, te⟩ := r
    rw [ht] at n1 n2
    simp only [MacroResult.done.injEq, Prod.mk.injEq] at n1
    obtain ⟨rfl, rfl⟩ := n1
    rw [n2] at n3
    refine ⟨_, _, n3, n2, rfl, ?_, ?_⟩
    · intro i U hU
      simp only [Defs.mapMag, List.getElem?_map] at hU ⊢
      obtain ⟨T, hT, rfl⟩ := Option.map_eq_some_iff.1 hU
      rw [hT]
      exact ⟨_, _, rfl, rfl, rfl, rfl, rfl, rfl, rfl, rfl, fun hr => ⟨(T.mag.2 hr).1, fun hk => T.mag.2.accurate hr hk⟩⟩
    · intro i U hU
      simp only [Defs.mapMag, List.getElem?_map] at hU ⊢
      obtain ⟨T, hT, rfl⟩ := Option.map_eq_some_iff.1 hU
      rw [hT]
      exact ⟨_, _, rfl, rfl, rfl, rfl, rfl, rfl, fun hr => ⟨(T.mag.2 hr).1, fun hk => T.mag.2.accurate hr hk⟩⟩

/-- **C47.** Whatever tokens the macro is given: if it produces definitions in the code's own arithmetic (`f64`, `powi` of compiler-rt or,
without `std`, of num-traits, storage as `Magnitude`), it produces the same definitions, with the same errors, in exact arithmetic; and every
unit and every constant whose computation stays in range has a factor within a relative `roundings × 2^-52` of the exact one (twice that
without `std`). -/
theorem C47_factors_accurate (std : Bool) (powf : Fl → Fl → Fl) (tokens : List Tok) (defs : Defs Int Magnitude) (errors : List Diag)
    (h : @unitSystem Int Magnitude _ Number.magnitude _ (magOpsInt (buildLib std powf)) Prefix.factor tokens = .done (defs, errors)) :
    ∃ (exact : Defs Int ℚ) (books : Defs Int Estimate),
      @unitSystem Int ℚ _ Number.exact _ rationalOps Prefix.literal tokens = .done (exact, errors) ∧
      @unitSystem Int Estimate _ Number.estimate _ estimateOps Prefix.estimate tokens = .done (books, errors) ∧
      defs.dimensions = exact.dimensions ∧
      (∀ (i : Nat) U, defs.units[i]? = some U → ∃ V W, exact.units[i]? = some V ∧ books.units[i]? = some W ∧
        U.name = V.name ∧ V.name = W.name ∧ U.dims = V.dims ∧ U.symbol = V.symbol ∧ U.isBase = V.isBase ∧ W.mag.value = V.mag ∧
        (W.mag.inRange = true → std = true → Accurate (buildLib std powf) U.mag W.mag.roundings V.mag) ∧
        (W.mag.inRange = true → W.mag.roundings ≤ 2 ^ 29 → Accurate (buildLib std powf) U.mag (2 * W.mag.roundings) V.mag)) ∧
      (∀ (i : Nat) C, defs.constants[i]? = some C → ∃ V W, exact.constants[i]? = some V ∧ books.constants[i]? = some W ∧
        C.name = V.name ∧ V.name = W.name ∧ C.dims = V.dims ∧ W.mag.value = V.mag ∧
        (W.mag.inRange = true → std = true → Accurate (buildLib std powf) C.mag W.mag.roundings V.mag) ∧
        (W.mag.inRange = true → W.mag.roundings ≤ 2 ^ 29 → Accurate (buildLib std powf) C.mag (2 * W.mag.roundings) V.mag)) := by
  obtain ⟨exact, books, h1, h2, h3, h4, h5⟩ := factors_accurate (buildLib_cost std powf) tokens defs errors h
  have key : ∀ (m : Magnitude) (W : Estimate) (V : ℚ),
      (W.inRange = true → W.roundings ≤ 2 ^ 30 ∧ ((if std then 1 else 2) * W.roundings ≤ 2 ^ 30 →
        Accurate (buildLib std powf) m ((if std then 1 else 2) * W.roundings) V)) →
      (W.inRange = true → std = true → Accurate (buildLib std powf) m W.roundings V) ∧
      (W.inRange = true → W.roundings ≤ 2 ^ 29 → Accurate (buildLib std powf) m (2 * W.roundings) V) := by
    intro m W V hx
    have mono : ∀ {n n' : Nat}, n ≤ n' → Accurate (buildLib std powf) m n V → Accurate (buildLib std powf) m n' V := by
      rintro n n' hnn ⟨x, a, b⟩
      refine ⟨x, a, le_trans b (mul_le_mul_of_nonneg_right ?_ (abs_nonneg _))⟩
      exact div_le_div_of_nonneg_right (by exact_mod_cast hnn) (by positivity)
    constructor
    · rintro hr rfl
      have := (hx hr).2 (by simpa using (hx hr).1)
      simpa using this
    · intro hr h29
      have hc : (if std then 1 else 2) * W.roundings ≤ 2 * W.roundings := Nat.mul_le_mul_right _ (by split <;> decide)
      exact mono hc ((hx hr).2 (by omega))
  refine ⟨exact, books, h1, h2, h3, fun i U hU => ?_, fun i C hC => ?_⟩
  · obtain ⟨V, W, a1, a2, a3, a4, a5, a6, a7, a8, a9⟩ := h4 i U hU
    exact ⟨V, W, a1, a2, a3, a4, a5, a6, a7, a8, key _ _ _ a9⟩
  · obtain ⟨V, W, a1, a2, a3, a4, a5, a6, a9⟩ := h5 i C hC
    exact ⟨V, W, a1, a2, a3, a4, a5, a6, key _ _ _ a9⟩

/-- The same for `f32` storage: one more conversion, rounding once to 24 bits. The `f32` factor of a stored factor `x` of moderate size is
within a relative `2^-24` of `x`. -/
theorem C47_f32_factor (lib : FloatLib) (m : Magnitude) (x : ℚ) (hx : f64Fmt.val (m.intoF64 lib) = some x)
    (h1 : pow2 (-126) ≤ |x|) (h2 : f32Fmt.round |x| < f32Fmt.infBits) :
    ∃ y, f32Fmt.val (m.intoF32 lib) = some y ∧ |y - x| ≤ 1 / 2 ^ 24 * |x| := by
  obtain ⟨s, n, hm, hn, rfl⟩ := val_inv hx
  have habs : |if s then -f64Fmt.mag n else f64Fmt.mag n| = f64Fmt.mag n := by
    split <;> simp [abs_of_nonneg (mag_nonneg f64Fmt n)]
  rw [habs] at h1 h2 ⊢
  have he := round_rel_err f32Fmt (by decide) (q := f64Fmt.mag n) (by
    refine le_trans (pow2_le.2 ?_) h1
    simp only [f32Fmt]; norm_num) h2
  rw [show pow2 (-(f32Fmt.p : Int)) = 1 / 2 ^ 24 by rw [pow2_eq]; simp only [f32Fmt]; norm_num] at he
  unfold Magnitude.intoF32
  rw [hm]
  simp only [Fmt.convert, Fmt.isInf, decide_eq_false (not_le.2 hn), Bool.false_eq_true, if_false, Fmt.val, if_neg (not_le.2 h2)]
  refine ⟨_, rfl, ?_⟩
  cases s
  · simpa using he
  · simp only [if_true]
    rw [← abs_neg, show -(-f32Fmt.mag (f32Fmt.round (f64Fmt.mag n)) - -f64Fmt.mag n) =
      f32Fmt.mag (f32Fmt.round (f64Fmt.mag n)) - f64Fmt.mag n by ring]
    exact he

/-- The hypothesis of `C47_factors_accurate` is met by the text of src/si.rs, where every unit stays in range with at most 17 roundings. -/
example (std : Bool) (powf : Fl → Fl → Fl) : ∃ tokens defs, lex siLines = some tokens ∧
    @unitSystem Int Magnitude _ Number.magnitude _ (magOpsInt (buildLib std powf)) Prefix.factor tokens = .done (defs, []) := by
  obtain ⟨tokens, _, defs, h1, _, h, _⟩ := C46_si_float std powf
  exact ⟨tokens, defs, h1, h⟩
example : @SiFaithful Int Estimate _ _ _ estimateOps Number.estimate Prefix.estimate (fun _ _ m => m.inRange = true ∧ m.roundings ≤ 17) := by
  obtain ⟨toks, t, defs, h1, h2, h3, h4, h5, h6, h7⟩ := si_estimates
  refine ⟨toks, t, defs, h1, h2, h3, h4, h5, ?_, h7⟩
  intro u hu
  obtain ⟨r, hr, hn, hx⟩ := h6 u hu
  refine ⟨r, hr, hn, fun pre hpre base hbase => ?_⟩
  obtain ⟨U, hU, a, b, c, d⟩ := hx pre hpre base hbase
  simp only [siEstimateOk, Bool.and_eq_true, decide_eq_true_eq] at c
  exact ⟨U, hU, a, b, ⟨c.1.2, c.2⟩, d⟩

end Diman
