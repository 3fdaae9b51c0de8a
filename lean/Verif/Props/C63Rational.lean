import Verif.Props.C63
import Verif.Props.C18Literals
import Verif.Props.C47Rational
/-!
# C62 and C63 with feature `rational-dimensions`
What a symbol of the `si` module means in a text, and what quantities of the `si` module print, when exponents of dimensions are fractions. Powers
of conversion factors are computed with the platform's `powf`, about which is assumed: it is accurate to 3/4 of a unit in the last place
(`PowfAccurate`), `powf(x, 1) = x` and `powf(1, y) = 1`.
-/
namespace Diman

/-- What is assumed of the platform's `powf`. -/
structure PowfGood (powf : Fl → Fl → Fl) : Prop extends PowfAccurate powf where
  exponent_one : ∀ x, powf x (f64Fmt.ofInt 1) = x
  base_one : ∀ y, powf (f64Fmt.ofInt 1) y = f64Fmt.ofInt 1

/-- The assumption can be met. -/
theorem exists_powfGood : ∃ powf, PowfGood powf := by
  obtain ⟨powf, hp⟩ := exists_powfAccurate
  have hone : f64Fmt.val (f64Fmt.ofInt 1) = some 1 := by decide +kernel
  refine ⟨fun x y => if y = f64Fmt.ofInt 1 then x else if x = f64Fmt.ofInt 1 then f64Fmt.ofInt 1 else powf x y, ⟨?_, ?_⟩, ?_, ?_⟩
  · intro x y v w hv hw h1 h2 h3
    split
    · rename_i hy
      rw [hy, hone, Option.some.injEq] at hw
      refine ⟨v, hv, ?_⟩
      rw [← hw, Rat.cast_one, Real.rpow_one, sub_self, abs_zero]
      positivity
    split
    · rename_i hx
      rw [hx, hone, Option.some.injEq] at hv
      refine ⟨1, hone, ?_⟩
      rw [← hv, Rat.cast_one, Real.one_rpow, sub_self, abs_zero]
      positivity
    · exact hp.accurate x y v w hv hw h1 h2 h3
  · intro x s
    split
    · rename_i h
      have : ∀ s, Fl.num s 0 ≠ f64Fmt.ofInt 1 := by decide +kernel
      exact absurd h (this s)
    split
    · rfl
    · exact hp.zero x s
  · intro x; simp
  · intro y; simp

/-- The exponents written in src/si.rs are integers. -/
theorem si_literals_rational {lib : FloatLib} {t : UnresolvedTemplates Ratio Magnitude}
    (read : ∃ tokens s, lex siLines = some tokens ∧ parseSystem (ReadExponent.rational Ratio) tokens = some s ∧ readTemplates Number.magnitude s = some t) :
    letI := magOpsRatio lib
    (UnresolvedTemplates.expand (MagOps.one Ratio) Prefix.factor t).LitExponents (WrittenExponent.Ok : Ratio → Prop) := by
  let := magOpsRatio lib
  obtain ⟨tokens, s, h1, h2, h3⟩ := read
  refine C18_literals_rational _ _ s t h3 ?_
  have hn := siTextCheck_both false
  unfold siTextCheck at hn
  rw [h1] at hn
  cases hp : parseSystem false tokens with
  | none => simp [hp] at hn
  | some s' =>
    have e := (parse_rational (fun _ => ()) hp).1
    have h2' : parseSystem true tokens = some s := h2
    rw [h2', Option.some.injEq] at e
    rw [e]
    exact positive_of_int hp

/-- The SI module read with rational exponents. -/
theorem si_facts_rational (std : Bool) (powf : Fl → Fl → Fl) (platform : PowfAccurate powf) :
    letI := magOpsRatio (buildLib std powf)
    ∃ (t : UnresolvedTemplates Ratio Magnitude) (defs : Defs Ratio Magnitude),
      SiFacts Number.magnitude Prefix.factor (fun k q m =>
        ∃ x, f64Fmt.val (m.intoF64 (buildLib std powf)) = some x ∧ |x - 10 ^ k * q| ≤ 17 / 2 ^ 52 * |10 ^ k * q|) t defs ∧
      (UnresolvedTemplates.expand (MagOps.one Ratio) Prefix.factor t).LitExponents (WrittenExponent.Ok : Ratio → Prop) := by
  let := magOpsRatio (buildLib std powf)
  obtain ⟨t, defs, F⟩ := si_facts (C36_rational Number.magnitude Prefix.factor) (C46_si_rational_float std powf platform)
  exact ⟨t, defs, F, si_literals_rational F.read⟩

theorem si_expo_int {q : ℚ} {r : SiUnit} {k : Str} (h : q = r.dim.of k) : ∃ z : Int, q * (1 : Nat) = z :=
  ⟨r.dim.of k, by rw [h, Nat.cast_one, mul_one]⟩

/-- **C62, SI module, feature `rational-dimensions`.** For every unit of the `si` module that has a symbol (with or without prefix, rational
exponents, with or without feature `std`): the symbol in a text means the unit in code, bit for bit. Texts for vectors are shorter than 2²⁹
characters. -/
theorem C62_si_rational (std : Bool) (powf : Fl → Fl → Fl) (platform : PowfGood powf) (P : PlatformFns) (hP : P.lib = buildLib std powf)
    (T : FloatText) :
    ∃ tokens defs, lex siLines = some tokens ∧
      @unitSystem Ratio Magnitude _ Number.magnitude _ (magOpsRatio P.lib) Prefix.factor tokens = .done (defs, []) ∧
      (∀ U ∈ defs.units, ∀ sym, U.symbol = some sym →
        letI := magOpsRatio P.lib
        SymbolMeansUnit P T (2 ^ 29) defs sym U) ∧
      (∀ r ∈ siUnits, ∀ sym, r.symbol = some sym → ∃ U ∈ defs.units, U.name = r.name ∧ U.symbol = some sym ∧ ∀ k, U.dims.expo k = r.dim.of k) ∧
      defs.baseDimensions = siBaseFields := by
  rw [hP]
  let := magOpsRatio (buildLib std powf)
  obtain ⟨t, defs, F, literals⟩ := si_facts_rational std powf platform.toPowfAccurate
  obtain ⟨tokens, h1, h2⟩ := F.text
  refine ⟨tokens, defs, h1, h2, ?_, ?_, F.base⟩
  swap
  · intro r hr sym hsym
    obtain ⟨statements, n1, n2⟩ := F.names
    obtain ⟨u, hu, e⟩ := n1 r hr
    obtain ⟨r', hr', e', hx⟩ := n2 u hu
    have : r' = r := siUnits_names r' hr' r hr (e'.symm.trans e)
    subst this
    obtain ⟨U, hU, b1, b2, -, b4, -⟩ := hx none (by simp) u.name (by simp)
    refine ⟨U, hU, ?_, ?_, b2⟩
    · rw [b1, e]; rfl
    · rw [b4 rfl, hsym]; rfl
  intro U hU sym hsym
  obtain ⟨res, hacc⟩ := accepted_of_run F.run
  have key := C62_text_is_code_rational std powf P hP T (fun x _ => platform.exponent_one x)
  rw [hP] at key
  have hst : ∀ U ∈ defs.units, f64Fmt.val (U.mag.intoF64 (buildLib std powf)) ≠ none ∧ Storable (U.mag.intoF64 (buildLib std powf)) := by
    intro V hV
    obtain ⟨r, hr, pre, _, e2, _⟩ := F.units V hV
    exact si_storable (std := true) hr e2
  refine key Prefix.factor t defs F.run literals (by rw [F.base]; decide) (fun V hV => (hst V hV).1) 4 1 (2 ^ 29) ?_ one_pos (by norm_num) ?_ (by norm_num)
    (by norm_num) U hU sym hsym ?_ (hst U hU).2
  · intro V hV k
    obtain ⟨r, hr, pre, e1, _, _⟩ := F.units V hV
    rw [e1 k]
    exact_mod_cast SiExps.of_le (by norm_num) (siUnits_range r hr).2 k
  · intro V hV k
    obtain ⟨r, hr, pre, e1, _, _⟩ := F.units V hV
    exact si_expo_int (e1 k)
  · have := symbols_plain hacc F.plain hU hsym
    exact fun hc => (this.2 _ hc).2 (by decide)

/-- **C63, feature `rational-dimensions`.** For the `si` module with rational exponents (IEEE floats, core's text):
* a quantity of any dimension, fractional or not, is printed as its number followed by symbols of units of the SI table that have value exactly
  one, whose powers multiply to exactly the dimension;
* serialising a quantity whose dimension has integer exponents (in the range of `i32`) and deserialising the text gives the quantity back, bit
  for bit (with fractional exponents this is false: F6);
* deserialising a text of fewer than 2²⁹ characters never panics. -/
theorem C63_si_rational (std : Bool) (powf : Fl → Fl → Fl) (platform : PowfGood powf) (P : PlatformFns)
    (hP : P.lib = buildLib std powf) :
    letI := magOpsRatio P.lib; letI := softPrims P; letI := softText coreText
    ∃ tokens defs, lex siLines = some tokens ∧ unitSystem (E := Ratio) Number.magnitude Prefix.factor tokens = .done (defs, []) ∧
      defs.baseDimensions = siBaseFields ∧
      (∀ (d : DimVal Ratio) (value : Str), d.length = 7 →
        ∃ terms : List (UnitTerm Ratio Magnitude), debugFmt Fl defs d value = some (value ++ (terms.map UnitTerm.text).flatten) ∧
          d.vec = siBaseFields.map (fun k => (terms.map fun u => u.power * u.unit.dims.expo k).sum) ∧
          ∀ u ∈ terms, u.unit ∈ defs.units ∧ ∃ r ∈ siUnits, ∃ pre sym, r.symbol = some sym ∧ u.symbol = (siPrefix? pre).symbol ++ sym ∧
            10 ^ (siPrefix? pre).power * r.value = 1 ∧ ∀ k, u.unit.dims.expo k = r.dim.of k) ∧
      (∀ (d : DimVal Ratio) (s : Storage) (xs : Raw Fl), d.length = 7 → (∀ e ∈ d, ∃ i : Int, InI32 i ∧ e = ⟨i, 1⟩) → xs.length = s.numDims →
        (∀ x ∈ xs, s.base.fmt.Valid x) →
        ∃ text, serializeStr Magnitude defs s d xs = some text ∧ deserializeStr Magnitude defs s d text = some (.ok xs)) ∧
      (∀ (d : DimVal Ratio) (s : Storage) (text : Str), text.length < 2 ^ 29 →
        ∃ o : Outcome (Raw Fl), deserializeStr Magnitude defs s d text = some o ∧ o ≠ .panic) := by
  have hl : P.lib.Ones := by rw [hP]; exact buildLib_ones std platform.base_one
  have facts := si_facts_rational std powf platform.toPowfAccurate
  rw [← hP] at facts
  let := magOpsRatio P.lib; let := softPrims P; let := softText coreText
  let := softLawfulRatio P coreText hl coreText_roundTrips
  obtain ⟨t, defs, F, literals⟩ := facts
  obtain ⟨tokens, h1, h2⟩ := F.text
  have distinct : defs.baseDimensions.Nodup := by rw [F.base]; decide
  have seven : defs.baseDimensions.length = 7 := by rw [F.base]; rfl
  have finite : ∀ U ∈ defs.units, TextPrims.finite Magnitude (Prims.into .f64 U.mag : Fl) = true := by
    intro U hU
    obtain ⟨r, hr, pre, _, e2, _⟩ := F.units U hU
    exact text_finite coreText (si_storable (std := true) hr e2).1
  have bound : ∀ U ∈ defs.units, ∀ k, |U.dims.expo k| ≤ (4 : Nat) := by
    intro V hV k
    obtain ⟨r, hr, pre, e1, _, _⟩ := F.units V hV
    rw [e1 k]
    exact_mod_cast SiExps.of_le (by norm_num) (siUnits_range r hr).2 k
  have denominator : ∀ U ∈ defs.units, ∀ k, ∃ z : Int, U.dims.expo k * (1 : Nat) = z := by
    intro V hV k
    obtain ⟨r, hr, pre, e1, _, _⟩ := F.units V hV
    exact si_expo_int (e1 k)
  refine ⟨tokens, defs, h1, h2, F.base, ?_, ?_, ?_⟩
  · intro d value hd
    obtain ⟨terms, ht, hf⟩ := C26_debug_partial (K := Fl) Prefix.factor t defs F.run literals distinct F.hasBase d (by rw [hd, seven]) value
    refine ⟨terms, hf, ?_, ?_⟩
    · rw [← F.base]; exact ht.dimension
    · intro u hu
      obtain ⟨hU, hs⟩ := ht.units u hu
      refine ⟨hU, ?_⟩
      obtain ⟨r, hr, pre, e1, ⟨q, hq, he⟩, e3⟩ := F.units _ hU
      rcases e3 with e3 | e3
      · rw [hs] at e3; cases e3
      · rw [hs] at e3
        obtain ⟨sym, hsym, e⟩ := Option.map_eq_some_iff.1 e3.symm
        refine ⟨r, hr, pre, sym, hsym, e.symm, ?_, e1⟩
        have hone : u.unit.mag.intoF64 P.lib = f64Fmt.ofInt 1 := LawfulText.isOne_into (E := Ratio) (K := Fl) (ht.one u hu)
        rw [hone, show f64Fmt.val (f64Fmt.ofInt 1) = some 1 by decide +kernel, Option.some.injEq] at hq
        subst hq
        refine si_coherent r hr pre (mem_allPrefixes pre) (he.trans (mul_le_mul_of_nonneg_right ?_ (abs_nonneg _)))
        norm_num
  · intro d s xs hd hi hx hv
    exact C27_core_rational_partial P hl Prefix.factor t defs F.run literals distinct F.hasBase F.plain finite d (by rw [hd, seven]) hi s xs hx
      (fun x hx => hv x hx)
  · intro d s text hlen
    obtain ⟨o, ho⟩ := C28_compiles (K := Fl) (M := Magnitude) Prefix.factor t defs F.run literals distinct finite s d text
    refine ⟨o, ho, ?_⟩
    cases hs : s.isFloat with
    | false =>
      exact C30_no_panic Prefix.factor t defs F.run literals s hs d text o ho 4 bound 1 one_pos (by norm_num) denominator (by omega)
    | true =>
      have hw := words_splitWs text
      have hn := words_length hw
      exact C28_no_panic Prefix.factor t defs F.run literals s hs d text o ho 4 bound 1 one_pos (by norm_num) denominator _ hw (by omega)

/-! ### Concrete quantities -/

-- The square root of a length of 2: printed as "2" followed by units of the SI table whose powers are exactly one half of a length.
example : ∃ (P : PlatformFns) (defs : Defs Ratio Magnitude) (terms : List (UnitTerm Ratio Magnitude)),
    letI := magOpsRatio P.lib; letI := softPrims P; letI := softText coreText
    debugFmt Fl defs ([⟨1, 2⟩, ⟨0, 1⟩, ⟨0, 1⟩, ⟨0, 1⟩, ⟨0, 1⟩, ⟨0, 1⟩, ⟨0, 1⟩] : DimVal Ratio) (str!"2") =
      some (str!"2" ++ (terms.map UnitTerm.text).flatten) ∧
    DimVal.vec ([⟨1, 2⟩, ⟨0, 1⟩, ⟨0, 1⟩, ⟨0, 1⟩, ⟨0, 1⟩, ⟨0, 1⟩, ⟨0, 1⟩] : DimVal Ratio) =
      siBaseFields.map (fun k => (terms.map fun u => u.power * u.unit.dims.expo k).sum) := by
  obtain ⟨powf, hp⟩ := exists_powfGood
  let P : PlatformFns := ⟨buildLib true powf, fun _ x _ => x, fun _ x => x, fun _ x => x, fun _ _ x => x⟩
  obtain ⟨_, defs, _, _, _, h, _, _⟩ := C63_si_rational true powf hp P rfl
  obtain ⟨terms, h1, h2, _⟩ := h [⟨1, 2⟩, ⟨0, 1⟩, ⟨0, 1⟩, ⟨0, 1⟩, ⟨0, 1⟩, ⟨0, 1⟩, ⟨0, 1⟩] (str!"2") rfl
  exact ⟨P, defs, terms, h1, h2⟩

-- " 0.25  J", read as an energy, is bit for bit what `0.25 * joule` is.
example : ∃ (P : PlatformFns) (defs : Defs Ratio Magnitude) (U : UnitDef Ratio Magnitude) (r : Raw Fl),
    letI := magOpsRatio P.lib; letI := softPrims P; letI := softText coreText
    U ∈ defs.units ∧ U.name = str!"joule" ∧
      (Fn.unitMul).run 7 [.bare .f64, .unit ([⟨2, 1⟩, ⟨-2, 1⟩, ⟨1, 1⟩, ⟨0, 1⟩, ⟨0, 1⟩, ⟨0, 1⟩, ⟨0, 1⟩] : DimVal Ratio)]
        [(.bare [.num false 0x3fd0000000000000] : Val Fl Magnitude), .unit U.mag] = some (.quantity r) ∧
      deserializeStr Magnitude defs .f64 ([⟨2, 1⟩, ⟨-2, 1⟩, ⟨1, 1⟩, ⟨0, 1⟩, ⟨0, 1⟩, ⟨0, 1⟩, ⟨0, 1⟩] : DimVal Ratio) (str!" 0.25  J") = some (.ok r) := by
  obtain ⟨powf, hp⟩ := exists_powfGood
  let P : PlatformFns := ⟨buildLib true powf, fun _ x _ => x, fun _ x => x, fun _ x => x, fun _ _ x => x⟩
  let := magOpsRatio P.lib; let := softPrims P; let := softText coreText
  obtain ⟨tokens, defs, -, -, h, h', hb⟩ := C62_si_rational true powf hp P rfl coreText
  obtain ⟨U, hU, e1, e2, e3⟩ := h' _ (List.mem_of_find?_eq_some (p := fun r => decide (r.name = str!"joule"))
    (a := ⟨str!"joule", some (str!"J"), 1, ⟨2, 1, -2, 0, 0, 0, 0⟩⟩) (by rfl)) (str!"J") rfl
  have hw : Words (str!" 0.25  J") [str!"0.25", str!"J"] := splitWs_iff.1 (by decide +kernel)
  have ht : DimVal.vec ([⟨2, 1⟩, ⟨-2, 1⟩, ⟨1, 1⟩, ⟨0, 1⟩, ⟨0, 1⟩, ⟨0, 1⟩, ⟨0, 1⟩] : DimVal Ratio) = defs.baseDimensions.map U.dims.expo := by
    rw [hb]
    simp only [siBaseFields, List.map_cons, List.map_nil, e3]
    decide +kernel
  obtain ⟨r, r1, r2⟩ := (h U hU _ e2 .f64 .const _ (by
    intro e he
    have : ∀ e ∈ ([⟨2, 1⟩, ⟨-2, 1⟩, ⟨1, 1⟩, ⟨0, 1⟩, ⟨0, 1⟩, ⟨0, 1⟩, ⟨0, 1⟩] : List Ratio), e.Canonical := by decide
    exact this e he) ht).1 _ _ (.num false 0x3fd0000000000000) rfl hw (by decide +kernel)
  rw [hb] at r2
  exact ⟨P, defs, U, r, hU, e1, r2, r1⟩

end Diman
