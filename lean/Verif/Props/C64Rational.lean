import Verif.Props.C64Single
import Verif.Props.C63Rational
/-!
# C64 with feature `rational-dimensions`
Powers in a text are integers in that build too, but they are computed with the platform's `powf`, which is assumed accurate to 3/4 of a unit in
the last place (`PowfAccurate`).
-/
namespace Diman

/-- `C46_si_rational_float` in terms of roundings. -/
theorem si_holds_rational (std : Bool) (powf : Fl → Fl → Fl) (platform : PowfAccurate powf) :
    @SiFaithful Ratio Magnitude _ _ _ (magOpsRatio (buildLib std powf)) Number.magnitude Prefix.factor (fun k q m =>
      Holds (m.intoF64 (buildLib std powf)) (1 * 17) (10 ^ k * q) ∧
      ∃ x, f64Fmt.val (m.intoF64 (buildLib std powf)) = some x ∧ |x - 10 ^ k * q| ≤ (if true then 17 else 34) / 2 ^ 52 * |10 ^ k * q|) := by
  have hl := buildLib_stores std powf
  have hp : PowfAccurate (buildLib std powf).powf := by rw [buildLib_powf]; exact platform
  let mag : Number → Tracked (buildLib std powf) 1 := fun n => ⟨(n.magnitude, n.estimate), tracks_number hl n⟩
  let factor : Prefix → Tracked (buildLib std powf) 1 := fun p => ⟨(p.factor, p.estimate), tracks_prefix hl p⟩
  have x1 : @ExHom I64 Int (Tracked (buildLib std powf) 1) Estimate _ _ (trackedOpsI64 hl hp) estimateOps I64.val (fun t => t.1.2) :=
    @ExHom.mk _ _ _ _ _ _ (trackedOpsI64 hl hp) estimateOps _ _ rfl (fun _ _ => rfl) (fun _ _ => rfl) (fun _ _ => rfl)
  have x2 : @ExHom I64 Ratio (Tracked (buildLib std powf) 1) Magnitude _ _ (trackedOpsI64 hl hp) (magOpsRatio (buildLib std powf)) I64.ratio (fun t => t.1.1) :=
    @ExHom.mk _ _ _ _ _ _ (trackedOpsI64 hl hp) (magOpsRatio (buildLib std powf)) _ _ rfl (fun _ _ => rfl) (fun _ _ => rfl) (fun _ _ => rfl)
  refine @SiFaithful.rational (Tracked (buildLib std powf) 1) Estimate Magnitude (trackedOpsI64 hl hp) estimateOps (magOpsRatio (buildLib std powf))
    (fun t => t.1.2) (fun t => t.1.1) x1 x2 mag factor _ _ ?_ si_estimates
  intro k q m h
  simp only [siEstimateOk, Bool.and_eq_true, decide_eq_true_eq] at h
  obtain ⟨⟨hv, hr⟩, hn⟩ := h
  have H := (m.2 hr).2 (by omega)
  rw [hv] at H
  have H := H.mono (show 1 * m.1.2.roundings ≤ 1 * 17 by omega)
  refine ⟨H, ?_⟩
  obtain ⟨x, hx, hc, _⟩ := H
  refine ⟨x, hx, ?_⟩
  have he := hc.err (by norm_num)
  rw [show pow2 (-52) = 1 / 2 ^ 52 by rw [pow2_eq]; norm_num] at he
  calc _ ≤ _ := he
    _ = _ := by rw [if_pos rfl]; push_cast; ring

theorem powHolds_rational (std : Bool) (powf : Fl → Fl → Fl) (platform : PowfAccurate powf) :
    letI := magOpsRatio (buildLib std powf); PowHolds Ratio (buildLib std powf) 1 := by
  let := magOpsRatio (buildLib std powf)
  intro m V e h hi hm
  have hl := buildLib_stores std powf
  have hp : PowfAccurate (buildLib std powf).powf := by rw [buildLib_powf]; exact platform
  rw [Nat.one_mul] at h hi ⊢
  have := tracks_pow_ratio hl hp (a := Magnitude.fromF64 (m.intoF64 (buildLib std powf))) (x := ⟨V, 17, true⟩)
    (fun _ => ⟨by norm_num, fun _ => by rw [Nat.one_mul]; exact holds_store hl.two h⟩) e
  have hi' : e.natAbs * (17 + 1) + 1 ≤ 2 ^ 30 := by omega
  have hr : (estimateOps.pow (⟨V, 17, true⟩ : Estimate) e).inRange = true := by
    show (((true && decide (e.natAbs < 2 ^ 31)) && moderate (V ^ e)) && decide (e.natAbs * (17 + 1) + 1 ≤ 2 ^ 30)) = true
    rw [hm, decide_eq_true hi', decide_eq_true (by omega : e.natAbs < 2 ^ 31)]
    rfl
  have H := (this hr).2 (by rw [Nat.one_mul]; exact hi')
  rw [Nat.one_mul] at H
  have e1 : (estimateOps.pow (⟨V, 17, true⟩ : Estimate) e).roundings = 18 * e.natAbs + 1 := by
    show e.natAbs * (17 + 1) + 1 = _
    omega
  rw [e1] at H
  exact H

/-- What is known about the SI module with rational exponents, with roundings. -/
theorem si_facts_rational_holds (std : Bool) (powf : Fl → Fl → Fl) (platform : PowfAccurate powf) :
    letI := magOpsRatio (buildLib std powf)
    ∃ (t : UnresolvedTemplates Ratio Magnitude) (defs : Defs Ratio Magnitude),
      SiFacts Number.magnitude Prefix.factor (fun k q m =>
        Holds (m.intoF64 (buildLib std powf)) (1 * 17) (10 ^ k * q) ∧
        ∃ x, f64Fmt.val (m.intoF64 (buildLib std powf)) = some x ∧ |x - 10 ^ k * q| ≤ (if true then 17 else 34) / 2 ^ 52 * |10 ^ k * q|) t defs ∧
      (UnresolvedTemplates.expand (MagOps.one Ratio) Prefix.factor t).LitExponents (WrittenExponent.Ok : Ratio → Prop) := by
  let := magOpsRatio (buildLib std powf)
  obtain ⟨t, defs, F⟩ := si_facts (C36_rational Number.magnitude Prefix.factor) (si_holds_rational std powf platform)
  exact ⟨t, defs, F, si_literals_rational F.read⟩

/-- **C64, feature `rational-dimensions`.** As `C64_si`, with fractions for exponents and the platform's `powf`, accurate to 3/4 of a unit in the
last place: whenever a text is deserialised as a quantity of double-precision storage of the `si` module, it consists of numbers and words that are SI
unit symbols with prefixes and integer powers; the requested dimension is the one the SI table gives for these; and every stored number is the number in the
text times the exact size of the units by the SI table, up to a relative error of `(Σ (18 |power| + 2) + 1) × 2^-52`, with and without `std`. -/
theorem C64_si_rational (std : Bool) (powf : Fl → Fl → Fl) (platform : PowfAccurate powf) (P : PlatformFns) (hP : P.lib = buildLib std powf)
    (T : FloatText) :
    letI := magOpsRatio P.lib; letI := softPrims P; letI := softText T
    ∃ tokens defs, lex siLines = some tokens ∧ unitSystem (E := Ratio) Number.magnitude Prefix.factor tokens = .done (defs, []) ∧
      ∀ (s : Storage) (target : DimVal Ratio) (text : Str) (r : Raw Fl), s.base = .f64 → (∀ e ∈ target, e.Canonical) →
        deserializeStr Magnitude defs s target text = some (.ok r) →
        ∃ (nums ws : List Str) (xs : List Fl),
          (if s.isFloat then ∃ num, nums = [num] ∧ Words text (num :: ws)
            else ∃ pre inside post, text = pre ++ '(' :: (inside ++ ')' :: post) ∧ Words inside nums ∧ Words post ws) ∧
          List.Forall₂ (fun w x => T.parseF .f64 w = some x) nums xs ∧ (∃ ts, List.Forall₂ (fun w t => SiTerm.WrittenAs t w) ws ts) ∧
          ∀ ts, List.Forall₂ (fun w t => SiTerm.WrittenAs t w) ws ts →
            target.vec = siBaseFields.map (siDim ts) ∧
            List.Forall₂ (fun x y => ∀ q, f64Fmt.val x = some q → Comfortable q ts → siRoundings ts ≤ 2 ^ 30 →
              ∃ v, f64Fmt.val y = some v ∧ |v - q * siSize ts| ≤ siRoundings ts / 2 ^ 52 * |q * siSize ts|) xs r := by
  have facts := si_facts_rational_holds std powf platform
  have hpow := powHolds_rational std powf platform
  rw [← hP] at facts hpow
  let := magOpsRatio P.lib; let := softPrims P; let := softText T
  obtain ⟨t, defs, F, literals⟩ := facts
  obtain ⟨tokens, h1, h2⟩ := F.text
  refine ⟨tokens, defs, h1, h2, fun s target text r hs hc run => ?_⟩
  have := si_reading P T (c := 1) le_rfl hpow F literals s target hc text r hs run
  simpa only [Nat.one_mul] using this

/-- **C64, feature `rational-dimensions`.** As `C64_si_single`: for single precision the relative error is at most 2⁻²². -/
theorem C64_si_single_rational (std : Bool) (powf : Fl → Fl → Fl) (platform : PowfAccurate powf) (P : PlatformFns) (hP : P.lib = buildLib std powf)
    (T : FloatText) :
    letI := magOpsRatio P.lib; letI := softPrims P; letI := softText T
    ∃ tokens defs, lex siLines = some tokens ∧ unitSystem (E := Ratio) Number.magnitude Prefix.factor tokens = .done (defs, []) ∧
      ∀ (s : Storage) (target : DimVal Ratio) (text : Str) (r : Raw Fl), s.base = .f32 → (∀ e ∈ target, e.Canonical) →
        deserializeStr Magnitude defs s target text = some (.ok r) →
        ∃ (nums ws : List Str) (xs : List Fl),
          (if s.isFloat then ∃ num, nums = [num] ∧ Words text (num :: ws)
            else ∃ pre inside post, text = pre ++ '(' :: (inside ++ ')' :: post) ∧ Words inside nums ∧ Words post ws) ∧
          List.Forall₂ (fun w x => T.parseF .f32 w = some x) nums xs ∧ (∃ ts, List.Forall₂ (fun w t => SiTerm.WrittenAs t w) ws ts) ∧
          ∀ ts, List.Forall₂ (fun w t => SiTerm.WrittenAs t w) ws ts →
            target.vec = siBaseFields.map (siDim ts) ∧
            List.Forall₂ (fun x y => ∀ q, f32Fmt.val x = some q → Comfortable q ts → siRoundings ts ≤ 2 ^ 20 →
              single (siSize ts) → single (q * siSize ts) → ∃ v, f32Fmt.val y = some v ∧ |v - q * siSize ts| ≤ 1 / 2 ^ 22 * |q * siSize ts|) xs r := by
  have facts := si_facts_rational_holds std powf platform
  have hpow := powHolds_rational std powf platform
  rw [← hP] at facts hpow
  let := magOpsRatio P.lib; let := softPrims P; let := softText T
  obtain ⟨t, defs, F, literals⟩ := facts
  obtain ⟨tokens, h1, h2⟩ := F.text
  refine ⟨tokens, defs, h1, h2, fun s target text r hs hc run => ?_⟩
  have := si_reading_single P T (c := 1) le_rfl hpow F literals s target hc text r hs run
  simpa only [Nat.one_mul] using this

/-- **C64, feature `rational-dimensions`.** As `C64_si_reads`: every text that is a number (or numbers in parentheses) followed by declared SI unit
symbols with integer powers is read as a quantity of the dimension the SI table gives for these. -/
theorem C64_si_reads_rational (std : Bool) (powf : Fl → Fl → Fl) (platform : PowfAccurate powf) (P : PlatformFns) (hP : P.lib = buildLib std powf)
    (T : FloatText) :
    letI := magOpsRatio P.lib; letI := softPrims P; letI := softText T
    ∃ tokens defs, lex siLines = some tokens ∧ unitSystem (E := Ratio) Number.magnitude Prefix.factor tokens = .done (defs, []) ∧
      ∀ (s : Storage) (target : DimVal Ratio) (text : Str) (nums ws : List Str) (xs : List Fl) (ts : List SiTerm), (∀ e ∈ target, e.Canonical) →
        (if s.isFloat then ∃ num, nums = [num] ∧ Words text (num :: ws)
          else ∃ inside post, text = '(' :: (inside ++ ')' :: post) ∧ ')' ∉ inside ∧ Words inside nums ∧ nums.length = s.numDims ∧ Words post ws) →
        List.Forall₂ (fun w x => T.parseF s.base w = some x) nums xs → List.Forall₂ (fun w t => SiTerm.WrittenAs t w) ws ts →
        (∀ t ∈ ts, t.Declared) → target.vec = siBaseFields.map (siDim ts) → text.length < 2 ^ 29 →
        ∃ r : Raw Fl, deserializeStr Magnitude defs s target text = some (.ok r) := by
  have sh := C46_si_rational_float std powf platform
  have facts := si_facts_rational std powf platform
  rw [← hP] at sh facts
  let := magOpsRatio P.lib; let := softPrims P; let := softText T
  obtain ⟨t, defs, F, literals⟩ := facts
  obtain ⟨tokens, h1, h2⟩ := F.text
  exact ⟨tokens, defs, h1, h2, fun s target text nums ws xs ts hc hw hx hts hdec hdim hlen =>
    si_reads P T (std := true) sh F literals s target hc text nums ws xs ts hw hx hts hdec hdim hlen⟩

/-! ### A concrete text -/

-- In the code generated from src/si.rs with feature `rational-dimensions`, "36 km h^-1" is read as a velocity of 10 m/s, up to a relative error of
-- 41/2^52, and it is refused for the square root of a velocity.
example : ∃ P : PlatformFns,
    letI := magOpsRatio P.lib; letI := softPrims P; letI := softText coreText
    ∃ (defs : Defs Ratio Magnitude) (y : Fl) (v : ℚ),
      deserializeStr Magnitude defs .f64 ([⟨1, 1⟩, ⟨-1, 1⟩, ⟨0, 1⟩, ⟨0, 1⟩, ⟨0, 1⟩, ⟨0, 1⟩, ⟨0, 1⟩] : DimVal Ratio) (str!"36 km h^-1") = some (.ok [y]) ∧
      f64Fmt.val y = some v ∧ |v - 10| ≤ 41 / 2 ^ 52 * 10 ∧
      ∀ r : Raw Fl, deserializeStr Magnitude defs .f64 ([⟨1, 2⟩, ⟨-1, 2⟩, ⟨0, 1⟩, ⟨0, 1⟩, ⟨0, 1⟩, ⟨0, 1⟩, ⟨0, 1⟩] : DimVal Ratio) (str!"36 km h^-1") ≠
        some (.ok r) := by
  obtain ⟨powf, hp⟩ := exists_powfAccurate
  let P : PlatformFns := ⟨buildLib true powf, fun _ x _ => x, fun _ x => x, fun _ x => x, fun _ _ x => x⟩
  refine ⟨P, ?_⟩
  let := magOpsRatio P.lib; let := softPrims P; let := softText coreText
  obtain ⟨tokens, defs, h1, h2, h⟩ := C64_si_rational true powf hp P rfl coreText
  obtain ⟨tokens', defs', h1', h2', h'⟩ := C64_si_reads_rational true powf hp P rfl coreText
  obtain rfl : tokens = tokens' := Option.some.inj (h1.symm.trans h1')
  obtain rfl : defs = defs' := by
    rw [h2] at h2'
    simpa using h2'
  have hw : Words (str!"36 km h^-1") [str!"36", str!"km", str!"h^-1"] := splitWs_iff.1 (by decide +kernel)
  have hx : ∃ x, coreText.parseF .f64 (str!"36") = some x ∧ f64Fmt.val x = some 36 := by
    have hf : (coreText.parseF .f64 (str!"36")).any (fun x => decide (f64Fmt.val x = some 36)) = true := by decide +kernel
    cases hp : coreText.parseF .f64 (str!"36") with
    | none => rw [hp] at hf; simp at hf
    | some x => rw [hp] at hf; exact ⟨x, rfl, by simpa using hf⟩
  obtain ⟨x, hx, hv⟩ := hx
  have key : ∀ target : DimVal Ratio, (∀ e ∈ target, e.Canonical) → ∀ r, deserializeStr Magnitude defs .f64 target (str!"36 km h^-1") = some (.ok r) →
      target.vec = siBaseFields.map (siDim C64.kmh) ∧ ∃ y v, r = [y] ∧ f64Fmt.val y = some v ∧ |v - 10| ≤ 41 / 2 ^ 52 * 10 := by
    intro target hcan r hr
    obtain ⟨nums, ws, xs, k1, k2, -, k3⟩ := h .f64 target _ r rfl hcan hr
    obtain ⟨num, rfl, k1⟩ := k1
    have e := (splitWs_iff.2 k1).symm.trans (splitWs_iff.2 hw)
    simp only [List.cons.injEq] at e
    obtain ⟨rfl, rfl⟩ := e
    obtain ⟨k3, k4⟩ := k3 _ C64.kmh_written
    refine ⟨k3, ?_⟩
    cases k2 with
    | cons a1 a2 =>
      cases a2
      cases k4 with
      | cons b1 b2 =>
        cases b2
        rw [hx] at a1
        cases a1
        obtain ⟨v, v1, v2⟩ := b1 36 hv C64.kmh_comfortable (by decide)
        refine ⟨_, v, rfl, v1, ?_⟩
        have : siSize C64.kmh = 1000 / 3600 := by decide +kernel
        rw [this, show siRoundings C64.kmh = 41 by decide] at v2
        norm_num at v2 ⊢
        exact v2
  have can1 : ∀ e ∈ ([⟨1, 1⟩, ⟨-1, 1⟩, ⟨0, 1⟩, ⟨0, 1⟩, ⟨0, 1⟩, ⟨0, 1⟩, ⟨0, 1⟩] : List Ratio), e.Canonical := by decide
  have can2 : ∀ e ∈ ([⟨1, 2⟩, ⟨-1, 2⟩, ⟨0, 1⟩, ⟨0, 1⟩, ⟨0, 1⟩, ⟨0, 1⟩, ⟨0, 1⟩] : List Ratio), e.Canonical := by decide
  obtain ⟨r, hr⟩ := h' .f64 ([⟨1, 1⟩, ⟨-1, 1⟩, ⟨0, 1⟩, ⟨0, 1⟩, ⟨0, 1⟩, ⟨0, 1⟩, ⟨0, 1⟩] : DimVal Ratio) _ [str!"36"] _ [x] C64.kmh can1 ⟨_, rfl, hw⟩
    (.cons hx .nil) C64.kmh_written
    (by
      intro t ht
      simp only [C64.kmh, List.mem_cons, List.not_mem_nil, or_false] at ht
      rcases ht with rfl | rfl
      · exact .inr (by decide)
      · exact .inl rfl)
    (by decide +kernel) (by decide)
  obtain ⟨-, y, v, rfl, v1, v2⟩ := key _ can1 _ hr
  refine ⟨defs, y, v, hr, v1, v2, fun r hr => ?_⟩
  have := (key _ can2 _ hr).1
  revert this
  decide +kernel

end Diman
