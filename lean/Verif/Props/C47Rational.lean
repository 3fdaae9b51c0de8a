import Verif.Props.C47
import Verif.Props.C50
import Verif.Proofs.RealEstimate
/-!
# C46 and C47 with feature `rational-dimensions`
In that build powers of conversion factors are computed with `powf` on `f64`, which the platform supplies: these theorems assume it is accurate
to 3/4 of a unit in the last place (`PowfAccurate`).
-/
namespace Diman

/-- The factor stored in `m` is finite and within a relative `n × 2^-52` of the real number `q`. -/
def AccurateR (lib : FloatLib) (m : Magnitude) (n : Nat) (q : ℝ) : Prop :=
  ∃ x : ℚ, f64Fmt.val (m.intoF64 lib) = some x ∧ |(x : ℝ) - q| ≤ n / 2 ^ 52 * |q|

theorem TracksR.accurate {lib : FloatLib} {m : Magnitude} {e : RealEstimate} (h : TracksR lib m e) (hr : e.inRange) :
    AccurateR lib m e.roundings e.value := by
  obtain ⟨hn, x, hx, hc, _⟩ := h hr
  exact ⟨x, hx, hc.err hn⟩

/-- **C47, fractional powers.** Whatever tokens the macro is given in the build with `rational-dimensions`: if it produces definitions in the
code's own arithmetic (`f64`, an accurate `powf`, storage as `Magnitude`, with or without `std`), it produces the same definitions, with the same errors, in exact real
arithmetic; and every unit and every constant whose computation stays in range has a factor within a relative `roundings × 2^-52` of the exact
one. -/
theorem C47_rational_accurate (std : Bool) (powf : Fl → Fl → Fl) (platform : PowfAccurate powf) (tokens : List Tok) (defs : Defs Ratio Magnitude) (errors : List Diag)
    (h : @unitSystem Ratio Magnitude _ Number.magnitude _ (magOpsRatio (buildLib std powf)) Prefix.factor tokens = .done (defs, errors)) :
    ∃ (exact : Defs Ratio ℝ) (books : Defs Ratio RealEstimate),
      @unitSystem Ratio ℝ _ (fun n => n.exact) _ realOps (fun p => p.literal) tokens = .done (exact, errors) ∧
      @unitSystem Ratio RealEstimate _ Number.realEstimate _ realEstimateOps Prefix.realEstimate tokens = .done (books, errors) ∧
      defs.dimensions = exact.dimensions ∧
      (∀ (i : Nat) U, defs.units[i]? = some U → ∃ V W, exact.units[i]? = some V ∧ books.units[i]? = some W ∧
        U.name = V.name ∧ V.name = W.name ∧ U.dims = V.dims ∧ U.symbol = V.symbol ∧ U.isBase = V.isBase ∧ W.mag.value = V.mag ∧
        (W.mag.inRange → AccurateR (buildLib std powf) U.mag W.mag.roundings V.mag)) ∧
      (∀ (i : Nat) C, defs.constants[i]? = some C → ∃ V W, exact.constants[i]? = some V ∧ books.constants[i]? = some W ∧
        C.name = V.name ∧ V.name = W.name ∧ C.dims = V.dims ∧ W.mag.value = V.mag ∧
        (W.mag.inRange → AccurateR (buildLib std powf) C.mag W.mag.roundings V.mag)) := by
  have hl := buildLib_stores std powf
  have hp : PowfAccurate (buildLib std powf).powf := by rw [buildLib_powf]; exact platform
  let mag : Number → TrackedR (buildLib std powf) := fun n => ⟨(n.magnitude, n.realEstimate), tracksR_number hl n⟩
  let factor : Prefix → TrackedR (buildLib std powf) := fun p => ⟨(p.factor, p.realEstimate), tracksR_prefix hl p⟩
  have e1 : (fun t : TrackedR (buildLib std powf) => t.1.2) ∘ mag = Number.realEstimate := funext fun _ => rfl
  have e2 : (fun t : TrackedR (buildLib std powf) => t.1.2) ∘ factor = Prefix.realEstimate := funext fun _ => rfl
  have e3 : (fun t : TrackedR (buildLib std powf) => t.1.1) ∘ mag = Number.magnitude := funext fun _ => rfl
  have e4 : (fun t : TrackedR (buildLib std powf) => t.1.1) ∘ factor = Prefix.factor := funext fun _ => rfl
  have e5 : RealEstimate.value ∘ Number.realEstimate = fun n => (n.exact : ℝ) := funext fun _ => rfl
  have e6 : RealEstimate.value ∘ Prefix.realEstimate = fun n => (n.literal : ℝ) := funext fun _ => rfl
  have n1 := @unitSystem_mapMag Ratio (TrackedR (buildLib std powf)) Magnitude _ _ (trackedOpsR hl hp) (magOpsRatio (buildLib std powf)) (fun t => t.1.1)
    (homR_fst hl hp) mag factor tokens
  have n2 := @unitSystem_mapMag Ratio (TrackedR (buildLib std powf)) RealEstimate _ _ (trackedOpsR hl hp) realEstimateOps (fun t => t.1.2)
    (homR_snd hl hp) mag factor tokens
  have n3 := @unitSystem_mapMag Ratio RealEstimate ℝ _ _ realEstimateOps realOps RealEstimate.value homR_value Number.realEstimate Prefix.realEstimate
    tokens
  rw [e3, e4, h] at n1
  rw [e1, e2] at n2
  rw [e5, e6] at n3
  cases ht : @unitSystem Ratio (TrackedR (buildLib std powf)) _ mag _ (trackedOpsR hl hp) factor tokens with
  | syntaxError => rw [ht] at n1; simp at n1
  | panic => rw [ht] at n1; simp at n1
  | done r =>
    obtain ⟨td, te⟩ := r
    rw [ht] at n1 n2
    simp only [MacroResult.done.injEq, Prod.mk.injEq] at n1
    obtain ⟨rfl, rfl⟩ := n1
    rw [n2] at n3
    refine ⟨_, _, n3, n2, rfl, ?_, ?_⟩
    · intro i U hU
      simp only [Defs.mapMag, List.getElem?_map] at hU ⊢
      obtain ⟨T, hT, rfl⟩ := Option.map_eq_some_iff.1 hU
      rw [hT]
      exact ⟨_, _, rfl, rfl, rfl, rfl, rfl, rfl, rfl, rfl, fun hr => T.mag.2.accurate hr⟩
    · intro i U hU
      simp only [Defs.mapMag, List.getElem?_map] at hU ⊢
      obtain ⟨T, hT, rfl⟩ := Option.map_eq_some_iff.1 hU
      rw [hT]
      exact ⟨_, _, rfl, rfl, rfl, rfl, rfl, rfl, fun hr => T.mag.2.accurate hr⟩

/-! ### The SI module -/

section
variable {M0 M M' : Type} [MagOps I64 M0] [MagOps Int M] [MagOps Ratio M']

theorem expo_mapPow (d : Dims I64) (k : Str) : (d.mapPow I64.ratio).expo k = (d.mapPow I64.val).expo k := by
  unfold Dims.expo
  rw [Dims.mapPow_get, Dims.mapPow_get]
  cases Dims.get d k with
  | none => rfl
  | some n =>
    show ((n.val : Int) : ℚ) / ((1 : Int) : ℚ) = ((n.val : Int) : ℚ)
    simp

/-- What the tables say carries over from the integer build. -/
theorem SiFaithful.rational (φ : M0 → M) (φ' : M0 → M') [ExHom I64.val φ] [ExHom I64.ratio φ'] (mag : Number → M0) (factor : Prefix → M0)
    {V : Int → ℚ → M → Prop} {V' : Int → ℚ → M' → Prop} (hV : ∀ k q m, V k q (φ m) → V' k q (φ' m))
    (h : SiFaithful Int M (φ ∘ mag) (φ ∘ factor) V) : SiFaithful Ratio M' (φ' ∘ mag) (φ' ∘ factor) V' := by
  obtain ⟨toks, t, defs, h1, h2, h3, h4, h5, h6, h7⟩ := h
  obtain ⟨hp, t', ht⟩ := parse_rational mag h2
  have r1 := readTemplates_lift (fun x n h => read_int h) _ φ t t' ht
  have r2 := readTemplates_lift (fun x n h => read_ratio h) _ φ' t t' ht
  have m1 := runUnitSystem_mapEx (ψ := I64.val) (φ := φ) factor t'
  have m2 := runUnitSystem_mapEx (ψ := I64.ratio) (φ := φ') factor t'
  unfold unitSystem at h3
  rw [h2] at h3
  simp only [r1, m1] at h3
  cases hr : runUnitSystem factor t' with
  | none => rw [hr] at h3; simp at h3
  | some r =>
    obtain ⟨d0, ds⟩ := r
    rw [hr] at h3
    simp only [Option.map_some, MacroResult.done.injEq, Prod.mk.injEq] at h3
    obtain ⟨rfl, rfl⟩ := h3
    refine ⟨toks, t, d0.mapEx I64.ratio φ', h1, hp, ?_, ?_, ?_, ?_, h7⟩
    · unfold unitSystem
      rw [show ReadExponent.rational Ratio = true from rfl, hp]
      simp only [r2, m2, hr]
      rfl
    · intro D hD
      obtain ⟨D0, hD0, rfl⟩ := List.mem_map.1 hD
      obtain ⟨r, hr, hn, he⟩ := h4 _ (List.mem_map_of_mem hD0)
      exact ⟨r, hr, hn, fun k => (expo_mapPow _ k).trans (he k)⟩
    · intro r hr
      obtain ⟨D, hD, hn⟩ := h5 r hr
      obtain ⟨D0, hD0, rfl⟩ := List.mem_map.1 hD
      exact ⟨_, List.mem_map_of_mem hD0, hn⟩
    · intro u hu
      obtain ⟨r, hr, hn, hx⟩ := h6 u hu
      refine ⟨r, hr, hn, fun pre hpre base hbase => ?_⟩
      obtain ⟨U, hU, a, b, c, d⟩ := hx pre hpre base hbase
      obtain ⟨U0, hU0, rfl⟩ := List.mem_map.1 hU
      exact ⟨_, List.mem_map_of_mem hU0, a, fun k => (expo_mapPow _ k).trans (b k), hV _ _ _ c, d⟩
end

/-- Stored factors of the build with fractions, with the books of the integer build. -/
@[reducible] def trackedOpsI64 {lib : FloatLib} (hl : LibStores lib 1) (hp : PowfAccurate lib.powf) : MagOps I64 (Tracked lib 1) where
  one := ⟨(_, _), tracks_one hl⟩
  mul a b := ⟨(_, _), tracks_mul hl a.2 b.2⟩
  div a b := ⟨(_, _), tracks_div hl a.2 b.2⟩
  pow a e := ⟨(_, _), tracks_pow_ratio hl hp a.2 e.val⟩
  isOne a := (magOpsInt lib).isOne a.1.1

/-- **C46, feature `rational-dimensions`, in the code's arithmetic.** In that build too every factor of the SI module is finite and within a
relative `17 × 2^-52` of the value of the table. -/
theorem C46_si_rational_float (std : Bool) (powf : Fl → Fl → Fl) (platform : PowfAccurate powf) :
    @SiFaithful Ratio Magnitude _ _ _ (magOpsRatio (buildLib std powf)) Number.magnitude Prefix.factor (fun k q m =>
      ∃ x, f64Fmt.val (m.intoF64 (buildLib std powf)) = some x ∧ |x - 10 ^ k * q| ≤ 17 / 2 ^ 52 * |10 ^ k * q|) := by
  have hl := buildLib_stores std powf
  have hp : PowfAccurate (buildLib std powf).powf := by rw [buildLib_powf]; exact platform
  let mag : Number → Tracked (buildLib std powf) 1 := fun n => ⟨(n.magnitude, n.estimate), tracks_number hl n⟩
  let factor : Prefix → Tracked (buildLib std powf) 1 := fun p => ⟨(p.factor, p.estimate), tracks_prefix hl p⟩
  have x1 : @ExHom I64 Int (Tracked (buildLib std powf) 1) Estimate _ _ (trackedOpsI64 hl hp) estimateOps I64.val (fun t => t.1.2) :=
    @ExHom.mk _ _ _ _ _ _ (trackedOpsI64 hl hp) estimateOps _ _ rfl (fun _ _ => rfl) (fun _ _ => rfl) (fun _ _ => rfl)
  have x2 : @ExHom I64 Ratio (Tracked (buildLib std powf) 1) Magnitude _ _ (trackedOpsI64 hl hp) (magOpsRatio (buildLib std powf)) I64.ratio (fun t => t.1.1) :=
    @ExHom.mk _ _ _ _ _ _ (trackedOpsI64 hl hp) (magOpsRatio (buildLib std powf)) _ _ rfl (fun _ _ => rfl) (fun _ _ => rfl) (fun _ _ => rfl)
  refine @SiFaithful.rational (Tracked (buildLib std powf) 1) Estimate Magnitude (trackedOpsI64 hl hp) estimateOps (magOpsRatio (buildLib std powf))
    (fun t => t.1.2) (fun t => t.1.1) x1 x2 mag factor _ _ ?_ si_estimates
  intro k q m h
  simp only [siEstimateOk, Bool.and_eq_true, decide_eq_true_eq] at h
  obtain ⟨⟨hv, hr⟩, hn⟩ := h
  obtain ⟨x, hx, hc, _⟩ := (m.2 hr).2 (by omega)
  rw [Nat.one_mul] at hc
  refine ⟨x, hx, ?_⟩
  have he := (hc.mono hn).err (by norm_num)
  rw [hv, show pow2 (-52) = 1 / 2 ^ 52 by rw [pow2_eq]; norm_num] at he
  calc _ ≤ _ := he
    _ = _ := by push_cast; ring

/-- The assumption can be met. -/
example : ∃ powf, PowfAccurate powf := exists_powfAccurate
/-- So the hypotheses of `C47_rational_accurate` are met by the text of src/si.rs. -/
example (std : Bool) : ∃ powf tokens defs, PowfAccurate powf ∧ lex siLines = some tokens ∧
    @unitSystem Ratio Magnitude _ Number.magnitude _ (magOpsRatio (buildLib std powf)) Prefix.factor tokens = .done (defs, []) := by
  obtain ⟨powf, hp⟩ := exists_powfAccurate
  obtain ⟨tokens, _, defs, h1, _, h, _⟩ := C46_si_rational_float std powf hp
  exact ⟨powf, tokens, defs, hp, h1, h⟩

/-- The books allow fractional powers: the square root of the literal `4` stays in range, with three roundings. -/
example : (realEstimateOps.pow (Number.int 4).realEstimate ⟨1, 2⟩).inRange ∧ (realEstimateOps.pow (Number.int 4).realEstimate ⟨1, 2⟩).roundings = 3 ∧
    (realEstimateOps.pow (Number.int 4).realEstimate ⟨1, 2⟩).value = 2 := by
  have hr : (⟨1, 2⟩ : Ratio).real = 1 / 2 := by simp [Ratio.real]
  have hc : ⌈|(1 / 2 : ℝ)|⌉₊ = 1 := by
    rw [Nat.ceil_eq_iff (by norm_num)]; norm_num [abs_of_pos]
  have he : exponentRoundings ((Number.int 4).exact : ℝ) ⟨1, 2⟩ = 0 := by
    unfold exponentRoundings; exact if_pos ⟨1, by norm_num⟩
  have hv : (((Number.int 4).exact : ℚ) : ℝ) = 4 := by simp [Number.exact]
  have hp : (4 : ℝ) ^ (1 / 2 : ℝ) = 2 := by
    rw [← Real.sqrt_eq_rpow, show (4 : ℝ) = 2 ^ 2 by norm_num, Real.sqrt_sq (by norm_num)]
  have hm : ∀ x : ℝ, 1 ≤ x → x ≤ 4 → Moderate x := fun x h1 h2 => by
    rw [Moderate, abs_of_pos (by linarith)]
    refine ⟨le_trans (zpow_le_one_of_nonpos₀ (by norm_num) (by norm_num)) h1, le_trans h2 ?_⟩
    calc (4 : ℝ) = 2 ^ (2 : Int) := by norm_num
      _ ≤ _ := zpow_le_zpow_right₀ (by norm_num) (by norm_num)
  have key : realEstimateOps.pow (Number.int 4).realEstimate ⟨1, 2⟩ =
      .result (((Number.int 4).exact : ℝ) ^ (⟨1, 2⟩ : Ratio).real) (⌈|(⟨1, 2⟩ : Ratio).real|⌉₊ * 1 + exponentRoundings ((Number.int 4).exact : ℝ) ⟨1, 2⟩ + 2)
        ((Number.int 4).realEstimate.inRange ∧ (0 < ((Number.int 4).exact : ℝ) ∨ (2 : Int) = 1) ∧ Int.natAbs 1 < 2 ^ 31 ∧ (0 : Int) < 2 ∧ (2 : Int) < 2 ^ 31) := rfl
  rw [he, hr, hc, hv, hp] at key
  rw [key]
  refine ⟨⟨⟨⟨trivial, ?_, by norm_num⟩, .inl (by norm_num), by decide, by decide, by decide⟩, hm _ (by norm_num) (by norm_num), by norm_num⟩, rfl, rfl⟩
  rw [hv]; exact hm _ (by norm_num) (by norm_num)

end Diman
