import Verif.Props.C30
import Verif.Props.C44
import Verif.Props.C46
import Verif.Props.C57
import Verif.Props.C22
import Verif.Proofs.SiFacts
/-!
# C62 — A unit symbol in a text means the same as the unit in code
Deserialising `"3.5 km"` gives the same quantity, bit for bit, as evaluating `3.5 * kilometers`, although the two go through different code:
a table of `f64` factors, their powers and a product in the one case (serde.rs), the unit's constant parameter in the other.
-/
set_option linter.unusedSectionVars false
namespace Diman
open LawfulExponent

/-! ### Powers with exponent one -/

theorem powiCompilerRt_one {x : Fl} (h : f64Fmt.Valid x) : powiCompilerRt f64Fmt x 1 = x := by
  have e : powiLoop f64Fmt (f64Fmt.ofInt 1) x 1 = x := by
    unfold powiLoop
    simp [show f64Fmt.mul (f64Fmt.ofInt 1) x = x from (mul_ofInt_one .f64 h).2]
  simp [powiCompilerRt, e]

theorem powiNumTraits_one (x : Fl) : powiNumTraits f64Fmt x 1 = x := by
  have e : powSkip f64Fmt x 1 = (x, 1) := by
    unfold powSkip; simp
  simp [powiNumTraits, powNumTraits, e]

theorem buildLib_powi_one (std : Bool) (powf : Fl → Fl → Fl) {x : Fl} (h : f64Fmt.Valid x) : (buildLib std powf).powi x 1 = x := by
  cases std
  · exact powiNumTraits_one x
  · exact powiCompilerRt_one h

theorem storable_valid {x : Fl} (h : Storable x) : f64Fmt.Valid x := by
  cases x with
  | nan => exact h.elim
  | num s n => exact h.1

theorem round_mag_same (t : FloatTy) {n : Nat} (h : n < t.fmt.infBits) (s : Bool) : t.fmt.mul (.num s n) (t.fmt.ofInt 1) = .num s n :=
  (mul_ofInt_one t (x := .num s n) (le_of_lt h)).1

/-- `as f64` of an `f64` changes nothing. -/
theorem convert_f64 {x : Fl} (h : Storable x) : Fmt.convert f64Fmt f64Fmt x = x := by
  cases x with
  | nan => exact h.elim
  | num s n =>
    simp only [Fmt.convert]
    by_cases hn : n < f64Fmt.infBits
    · have hi : f64Fmt.isInf n = false := by simpa [Fmt.isInf] using hn
      simp [hi, round_mag f64Fmt (by decide) (le_of_lt hn)]
    · have e : n = f64Fmt.infBits := le_antisymm h.1 (not_lt.1 hn)
      subst e
      simp [Fmt.isInf]

/-- The factor of the unit in a text, in the storage's float type, is the factor used in code. -/
theorem one_unit_factor (P : PlatformFns) (t : FloatTy) (m : Magnitude) (h : Storable (m.intoF64 P.lib)) :
    Fmt.convert f64Fmt t.fmt (f64Fmt.mul (f64Fmt.ofInt 1) (m.intoF64 P.lib)) = (softPrims P).into t m := by
  have e : f64Fmt.mul (f64Fmt.ofInt 1) (m.intoF64 P.lib) = m.intoF64 P.lib := (mul_ofInt_one .f64 (storable_valid h)).2
  rw [e]
  cases t
  · rfl
  · exact convert_f64 h

section
variable {E : Type} [Exponent E] [LawfulExponent E] [FieldOps E] [LawfulFieldOps E] [TotalFields E] [WrittenExponent E] [MagOps E Magnitude]
  (P : PlatformFns) (T : FloatText)

theorem text_unit_float (one : ∀ x, Storable x → (MagOps.pow (Magnitude.fromF64 x) (Exponent.ofInt 1 : E)).intoF64 P.lib = x)
    (factor : Prefix → Magnitude) (t : UnresolvedTemplates E Magnitude) (defs : Defs E Magnitude)
    (accepted : runUnitSystem factor t = some (defs, []))
    (literals : (UnresolvedTemplates.expand (MagOps.one E) factor t).LitExponents (WrittenExponent.Ok : E → Prop))
    (distinct : defs.baseDimensions.Nodup)
    (finite : ∀ U ∈ defs.units, (softText T).finite (U.mag.intoF64 P.lib) = true)
    (B L : Nat) (bound : ∀ U ∈ defs.units, ∀ k, |U.dims.expo k| ≤ B) (positive : 0 < L)
    (denominator : ∀ U ∈ defs.units, ∀ k, ∃ z : Int, U.dims.expo k * L = z) (small : 2 * B * L ^ 2 < 2 ^ 32) (smallL : L < 2 ^ 31)
    (U : UnitDef E Magnitude) (hU : U ∈ defs.units) (sym : Str) (hsym : U.symbol = some sym) (hat : '^' ∉ sym)
    (storable : Storable (U.mag.intoF64 P.lib))
    (s : Storage) (float : s.isFloat = true) (target : DimVal E) (canonical : target.Canonical)
    (dimension : target.vec = defs.baseDimensions.map U.dims.expo)
    (text num : Str) (words : Words text [num, sym]) (x : Fl) (parsed : T.parseF s.base num = some x) :
    letI := softPrims P; letI := softText T
    ∃ r, deserializeStr Magnitude defs s target text = some (.ok r) ∧
      ∀ k : UnitKind, (Fn.unitMul).run defs.baseDimensions.length [.bare s, k.ty target] [(.bare [x] : Val Fl Magnitude), k.val U.mag] =
        some (.quantity r) := by
  let := softPrims P; let := softText T
  obtain ⟨o, ho⟩ := C28_compiles (K := Fl) (M := Magnitude) factor t defs accepted literals distinct finite s target text
  have np := C28_no_panic factor t defs accepted literals s float target text o ho B bound L positive smallL denominator [num, sym] words
    (by simpa using small)
  refine ⟨[(softPrims P).mul s.base x ((softPrims P).into s.base U.mag)], ?_, fun k => ?_⟩
  · rw [ho]
    congr 1
    rw [C28_float_iff factor t defs accepted literals s float target canonical text o ho np]
    refine ⟨num, [sym], words, x, parsed, [(U, 1)], .cons ⟨hU, sym, hsym, .inl ⟨hat, rfl, rfl⟩⟩ .nil, ?_, ?_⟩
    · show target.vec = defs.baseDimensions.map (UnitPowers.expo [(U, 1)])
      rw [dimension]
      refine List.map_congr_left fun k _ => ?_
      simp [UnitPowers.expo]
    · rw [← one_unit_factor P s.base U.mag storable]
      have := one _ storable
      show _ = [s.base.fmt.mul x (Fmt.convert f64Fmt s.base.fmt (f64Fmt.mul (f64Fmt.ofInt 1)
        ((MagOps.pow (Magnitude.fromF64 (U.mag.intoF64 P.lib)) (Exponent.ofInt 1 : E)).intoF64 P.lib)))]
      rw [this]
      rfl
  · exact (C22_same _ k s target U.mag [x]).1

theorem text_unit_vector (one : ∀ x, Storable x → (MagOps.pow (Magnitude.fromF64 x) (Exponent.ofInt 1 : E)).intoF64 P.lib = x)
    (factor : Prefix → Magnitude) (t : UnresolvedTemplates E Magnitude) (defs : Defs E Magnitude)
    (accepted : runUnitSystem factor t = some (defs, []))
    (literals : (UnresolvedTemplates.expand (MagOps.one E) factor t).LitExponents (WrittenExponent.Ok : E → Prop))
    (distinct : defs.baseDimensions.Nodup)
    (finite : ∀ U ∈ defs.units, (softText T).finite (U.mag.intoF64 P.lib) = true)
    (B L : Nat) (bound : ∀ U ∈ defs.units, ∀ k, |U.dims.expo k| ≤ B) (positive : 0 < L)
    (denominator : ∀ U ∈ defs.units, ∀ k, ∃ z : Int, U.dims.expo k * L = z) (smallL : L < 2 ^ 31)
    (U : UnitDef E Magnitude) (hU : U ∈ defs.units) (sym : Str) (hsym : U.symbol = some sym) (hat : '^' ∉ sym)
    (storable : Storable (U.mag.intoF64 P.lib))
    (s : Storage) (vector : s.isFloat = false) (target : DimVal E) (canonical : target.Canonical)
    (dimension : target.vec = defs.baseDimensions.map U.dims.expo)
    (pre inside post : Str) (h1 : '(' ∉ pre) (h2 : ')' ∉ pre) (h3 : ')' ∉ inside) (nums : List Str) (components : Words inside nums)
    (count : nums.length = s.numDims) (xs : List Fl) (parsed : List.Forall₂ (fun w x => T.parseF s.base w = some x) nums xs)
    (words : Words post [sym]) (short : (pre ++ '(' :: (inside ++ ')' :: post)).length * B * L ^ 2 < 2 ^ 32) :
    letI := softPrims P; letI := softText T
    ∃ r, deserializeStr Magnitude defs s target (pre ++ '(' :: (inside ++ ')' :: post)) = some (.ok r) ∧
      ∀ k : UnitKind, (Fn.unitMul).run defs.baseDimensions.length [.bare s, k.ty target] [(.bare xs : Val Fl Magnitude), k.val U.mag] =
        some (.quantity r) := by
  let := softPrims P; let := softText T
  obtain ⟨o, ho⟩ := C28_compiles (K := Fl) (M := Magnitude) factor t defs accepted literals distinct finite s target
    (pre ++ '(' :: (inside ++ ')' :: post))
  have np := C30_no_panic factor t defs accepted literals s vector target _ o ho B bound L positive smallL denominator short
  refine ⟨xs.map fun x => (softPrims P).mul s.base x ((softPrims P).into s.base U.mag), ?_, fun k => ?_⟩
  · rw [ho]
    congr 1
    rw [C30_vector_iff factor t defs accepted literals s vector target canonical _ o ho np]
    refine ⟨pre, inside, post, rfl, h1, h2, h3, nums, components, count, xs, parsed, [sym], words, [(U, 1)],
      .cons ⟨hU, sym, hsym, .inl ⟨hat, rfl, rfl⟩⟩ .nil, ?_, ?_⟩
    · show target.vec = defs.baseDimensions.map (UnitPowers.expo [(U, 1)])
      rw [dimension]
      refine List.map_congr_left fun k _ => ?_
      simp [UnitPowers.expo]
    · have := one _ storable
      refine List.map_congr_left fun x _ => ?_
      show s.base.fmt.mul x _ = s.base.fmt.mul (Fmt.convert f64Fmt s.base.fmt (f64Fmt.mul (f64Fmt.ofInt 1)
        ((MagOps.pow (Magnitude.fromF64 (U.mag.intoF64 P.lib)) (Exponent.ofInt 1 : E)).intoF64 P.lib))) x
      rw [this, one_unit_factor P s.base U.mag storable, Fmt.mul_comm _ _ _ (FloatTy.fmt_inf _)]
  · exact (C22_same _ k s target U.mag xs).1

/-- The symbol `sym` in a text means the unit `U`: for every storage type and both kinds of unit in code, in every text of fewer than `N`
characters that consists of a number (for vectors: a parenthesised list of numbers) and the symbol, deserialising the text gives the same
stored value as multiplying the number (vector) and the unit in code. -/
def SymbolMeansUnit (N : Nat) (defs : Defs E Magnitude) (sym : Str) (U : UnitDef E Magnitude) : Prop :=
  letI := softPrims P; letI := softText T
  ∀ (s : Storage) (k : UnitKind) (target : DimVal E), target.Canonical → target.vec = defs.baseDimensions.map U.dims.expo →
    (∀ text num x, s.isFloat = true → Words text [num, sym] → T.parseF s.base num = some x →
      ∃ r, deserializeStr Magnitude defs s target text = some (.ok r) ∧
        (Fn.unitMul).run defs.baseDimensions.length [.bare s, k.ty target] [(.bare [x] : Val Fl Magnitude), k.val U.mag] = some (.quantity r)) ∧
    (∀ text pre inside post nums xs, s.isFloat = false → text = pre ++ '(' :: (inside ++ ')' :: post) → '(' ∉ pre → ')' ∉ pre → ')' ∉ inside →
      text.length < N → Words inside nums → nums.length = s.numDims → List.Forall₂ (fun w x => T.parseF s.base w = some x) nums xs →
      Words post [sym] →
      ∃ r, deserializeStr Magnitude defs s target text = some (.ok r) ∧
        (Fn.unitMul).run defs.baseDimensions.length [.bare s, k.ty target] [(.bare xs : Val Fl Magnitude), k.val U.mag] = some (.quantity r))

end

theorem text_finite (T : FloatText) {x : Fl} (h : f64Fmt.val x ≠ none) : (softText T).finite x = true := by
  cases x with
  | nan => simp [Fmt.val] at h
  | num s n =>
    by_cases hn : f64Fmt.infBits ≤ n
    · simp [Fmt.val, hn] at h
    · show (!f64Fmt.isInf n) = true
      simp only [Fmt.isInf, Bool.not_eq_true', decide_eq_false_iff_not]
      exact hn

theorem int_denominator (d : Dims Int) (k : Str) : ∃ z : Int, d.expo k * (1 : Nat) = z := by
  unfold Dims.expo
  split
  · exact ⟨_, by rw [Nat.cast_one, mul_one]; rfl⟩
  · exact ⟨0, by simp⟩

/-- **C62.** In an accepted unit system (integer exponents; distinct field names, finite factors, exponents of units up to `B`), the symbol of
a unit in a text means the unit: `"<number> <symbol>"` is deserialised to exactly the quantity that `number * unit` is in code, bit for bit, in
both float types and for vectors, with and without feature `std`. The unit's factor must be one that a `Magnitude` stores without loss. -/
theorem C62_text_is_code (std : Bool) (powf : Fl → Fl → Fl) (P : PlatformFns) (hP : P.lib = buildLib std powf) (T : FloatText) :
    letI := magOpsInt P.lib
    ∀ (factor : Prefix → Magnitude) (t : UnresolvedTemplates Int Magnitude) (defs : Defs Int Magnitude)
      (_accepted : runUnitSystem factor t = some (defs, [])) (_distinct : defs.baseDimensions.Nodup)
      (_finite : ∀ U ∈ defs.units, f64Fmt.val (U.mag.intoF64 P.lib) ≠ none)
      (B N : Nat) (_bound : ∀ U ∈ defs.units, ∀ k, |U.dims.expo k| ≤ B) (_small : 2 * B < 2 ^ 32) (_short : N * B < 2 ^ 32)
      (U : UnitDef Int Magnitude) (_hU : U ∈ defs.units) (sym : Str) (_hsym : U.symbol = some sym) (_hat : '^' ∉ sym)
      (_storable : Storable (U.mag.intoF64 P.lib)), SymbolMeansUnit P T N defs sym U := by
  let := magOpsInt P.lib
  intro factor t defs accepted distinct finite B N bound small short U hU sym hsym hat storable s k target canonical dimension
  have one : ∀ x, Storable x → (MagOps.pow (Magnitude.fromF64 x) (Exponent.ofInt 1 : Int) : Magnitude).intoF64 P.lib = x := by
    intro x hx
    show (Magnitude.fromF64 (P.lib.powi ((Magnitude.fromF64 x).intoF64 P.lib) 1)).intoF64 P.lib = x
    rw [hP, C44_storable_roundtrip std powf x hx, buildLib_powi_one std powf (storable_valid hx), C44_storable_roundtrip std powf x hx]
  have fin := fun U hU => text_finite T (finite U hU)
  refine ⟨fun text num x float words parsed => ?_, fun text pre inside post nums xs vector e h1 h2 h3 hN w count parsed words => ?_⟩
  · obtain ⟨r, h, h'⟩ := text_unit_float P T one factor t defs accepted (C18_literals_int _) distinct fin B 1 bound one_pos
      (fun U _ k => int_denominator _ k) (by simpa using small) (by norm_num) U hU sym hsym hat storable s float target canonical dimension text num words x parsed
    exact ⟨r, h, h' k⟩
  · subst e
    obtain ⟨r, h, h'⟩ := text_unit_vector P T one factor t defs accepted (C18_literals_int _) distinct fin B 1 bound one_pos
      (fun U _ k => int_denominator _ k) (by norm_num) U hU sym hsym hat storable s vector target canonical dimension pre inside post h1 h2 h3 nums
      w count xs parsed words (by
        rw [one_pow, mul_one]
        exact lt_of_le_of_lt (Nat.mul_le_mul_right _ (le_of_lt hN)) short)
    exact ⟨r, h, h' k⟩

/-- **C62, feature `rational-dimensions`.** The same with rational exponents (`L` a common denominator of the exponents of units), if the
platform's `powf` returns its argument for the exponent one. -/
theorem C62_text_is_code_rational (std : Bool) (powf : Fl → Fl → Fl) (P : PlatformFns) (hP : P.lib = buildLib std powf) (T : FloatText)
    (powf_one : ∀ x, Storable x → powf x (f64Fmt.ofInt 1) = x) :
    letI := magOpsRatio P.lib
    ∀ (factor : Prefix → Magnitude) (t : UnresolvedTemplates Ratio Magnitude) (defs : Defs Ratio Magnitude)
      (_accepted : runUnitSystem factor t = some (defs, []))
      (_literals : (UnresolvedTemplates.expand (MagOps.one Ratio) factor t).LitExponents (WrittenExponent.Ok : Ratio → Prop))
      (_distinct : defs.baseDimensions.Nodup)
      (_finite : ∀ U ∈ defs.units, f64Fmt.val (U.mag.intoF64 P.lib) ≠ none)
      (B L N : Nat) (_bound : ∀ U ∈ defs.units, ∀ k, |U.dims.expo k| ≤ B) (_positive : 0 < L) (_smallL : L < 2 ^ 31)
      (_denominator : ∀ U ∈ defs.units, ∀ k, ∃ z : Int, U.dims.expo k * L = z)
      (_small : 2 * B * L ^ 2 < 2 ^ 32) (_short : N * B * L ^ 2 < 2 ^ 32)
      (U : UnitDef Ratio Magnitude) (_hU : U ∈ defs.units) (sym : Str) (_hsym : U.symbol = some sym) (_hat : '^' ∉ sym)
      (_storable : Storable (U.mag.intoF64 P.lib)), SymbolMeansUnit P T N defs sym U := by
  let := magOpsRatio P.lib
  intro factor t defs accepted literals distinct finite B L N bound positive smallL denominator small short U hU sym hsym hat storable s k target
    canonical dimension
  have one : ∀ x, Storable x → (MagOps.pow (Magnitude.fromF64 x) (Exponent.ofInt 1 : Ratio) : Magnitude).intoF64 P.lib = x := by
    intro x hx
    show (Magnitude.fromF64 (P.lib.powf ((Magnitude.fromF64 x).intoF64 P.lib) (f64Fmt.div (f64Fmt.ofInt 1) (f64Fmt.ofInt 1)))).intoF64 P.lib = x
    rw [show f64Fmt.div (f64Fmt.ofInt 1) (f64Fmt.ofInt 1) = f64Fmt.ofInt 1 by decide +kernel, hP, C44_storable_roundtrip std powf x hx,
      buildLib_powf, powf_one x hx, C44_storable_roundtrip std powf x hx]
  have fin := fun U hU => text_finite T (finite U hU)
  refine ⟨fun text num x float words parsed => ?_, fun text pre inside post nums xs vector e h1 h2 h3 hN w count parsed words => ?_⟩
  · obtain ⟨r, h, h'⟩ := text_unit_float P T one factor t defs accepted literals distinct fin B L bound positive
      denominator small smallL U hU sym hsym hat storable s float target canonical dimension text num words x parsed
    exact ⟨r, h, h' k⟩
  · subst e
    obtain ⟨r, h, h'⟩ := text_unit_vector P T one factor t defs accepted literals distinct fin B L bound positive
      denominator smallL U hU sym hsym hat storable s vector target canonical dimension pre inside post h1 h2 h3 nums
      w count xs parsed words (lt_of_le_of_lt (Nat.mul_le_mul_right _ (Nat.mul_le_mul_right _ (le_of_lt hN))) short)
    exact ⟨r, h, h' k⟩

/-! ### The SI module -/

set_option maxRecDepth 10000 in
theorem siUnits_range : ∀ r ∈ siUnits, 1 / 10 ^ 40 ≤ r.value ∧ ∀ p ∈ r.dim.table, |p.2| ≤ 4 := by decide +kernel

set_option maxRecDepth 10000 in
theorem siUnits_names : ∀ r ∈ siUnits, ∀ r' ∈ siUnits, r.name = r'.name → r = r' := by
  have h : (siUnits.map SiUnit.name).Nodup := by decide +kernel
  exact fun r hr r' hr' e => List.inj_on_of_nodup_map h hr hr' e

theorem SiExps.of_le {e : SiExps} {B : Int} (hB : 0 ≤ B) (h : ∀ p ∈ e.table, |p.2| ≤ B) (k : Str) : |e.of k| ≤ B := by
  unfold SiExps.of
  cases hf : e.table.find? (fun p => decide (p.1 = k)) with
  | none => simpa using hB
  | some p => exact h p (List.mem_of_find?_eq_some hf)

theorem siPrefix?_power (pre : Option Prefix) : -30 ≤ (siPrefix? pre).power := by
  cases pre with
  | none => decide
  | some p => cases p <;> decide

/-- A factor close to a value of the SI table is finite, positive and stored without loss. -/
theorem si_storable {std : Bool} {x : Fl} {pre : Option Prefix} {r : SiUnit} (hr : r ∈ siUnits)
    (h : ∃ q, f64Fmt.val x = some q ∧ |q - 10 ^ (siPrefix? pre).power * r.value| ≤ (if std then 17 else 34) / 2 ^ 52 * |10 ^ (siPrefix? pre).power * r.value|) :
    f64Fmt.val x ≠ none ∧ Storable x := by
  obtain ⟨q, hq, he⟩ := h
  refine ⟨by rw [hq]; simp, ?_⟩
  have h10 : (1 : ℚ) / 10 ^ 30 ≤ 10 ^ (siPrefix? pre).power := by
    have := zpow_le_zpow_right₀ (show (1 : ℚ) ≤ 10 by norm_num) (siPrefix?_power pre)
    refine le_trans (le_of_eq ?_) this
    rw [zpow_neg]; norm_num
  have hv : (1 : ℚ) / 10 ^ 70 ≤ 10 ^ (siPrefix? pre).power * r.value := by
    refine le_trans (by norm_num) (mul_le_mul h10 (siUnits_range r hr).1 (by norm_num) (by positivity))
  generalize (10 : ℚ) ^ (siPrefix? pre).power * r.value = v at hv he
  have hv0 : 0 < v := lt_of_lt_of_le (by norm_num) hv
  rw [abs_of_pos hv0] at he
  have hsmall : ((if std then 17 else 34 : ℚ) / 2 ^ 52) ≤ 1 / 2 := by cases std <;> norm_num
  have hq0 : (1 : ℚ) / 10 ^ 71 ≤ q := by
    have := (abs_le.1 he).1
    have := mul_le_mul_of_nonneg_right hsmall (le_of_lt hv0)
    have : (1 : ℚ) / 10 ^ 71 ≤ 1 / 2 * (1 / 10 ^ 70) := by norm_num
    linarith
  cases x with
  | nan => simp [Fmt.val] at hq
  | num s n =>
    simp only [Fmt.val] at hq
    split at hq
    · simp at hq
    · rename_i hn
      simp only [Option.some.injEq] at hq
      refine ⟨le_of_lt (not_le.1 hn), .inr ?_⟩
      have h1 : pow2 (-971) ≤ 1 / 10 ^ 71 := by decide +kernel
      have hm := mag_nonneg f64Fmt n
      have h2 : q ≤ f64Fmt.mag n := by
        rw [← hq]
        cases s <;> simp <;> linarith
      linarith

/-- **C62, SI module.** For every unit of the `si` module that has a symbol (with or without prefix, integer exponents, with or without feature
`std`): the symbol in a text means the unit in code, bit for bit. Texts for vectors are shorter than 2²⁹ characters. -/
theorem C62_si (std : Bool) (powf : Fl → Fl → Fl) (P : PlatformFns) (hP : P.lib = buildLib std powf) (T : FloatText) :
    ∃ tokens defs, lex siLines = some tokens ∧
      @unitSystem Int Magnitude _ Number.magnitude _ (magOpsInt P.lib) Prefix.factor tokens = .done (defs, []) ∧
      (∀ U ∈ defs.units, ∀ sym, U.symbol = some sym →
        letI := magOpsInt P.lib
        SymbolMeansUnit P T (2 ^ 29) defs sym U) ∧
      (∀ r ∈ siUnits, ∀ sym, r.symbol = some sym → ∃ U ∈ defs.units, U.name = r.name ∧ U.symbol = some sym ∧ ∀ k, U.dims.expo k = r.dim.of k) ∧
      defs.baseDimensions = siBaseFields := by
  rw [hP]
  let := magOpsInt (buildLib std powf)
  obtain ⟨t, defs, F⟩ := si_facts (C36_int Number.magnitude Prefix.factor) (C46_si_float std powf)
  obtain ⟨tokens, h1, h2⟩ := F.text
  refine ⟨tokens, defs, h1, h2, ?_, ?_, F.base⟩
  swap
  · intro r hr sym hsym
    obtain ⟨statements, n1, n2⟩ := F.names
    obtain ⟨u, hu, e⟩ := n1 r hr
    obtain ⟨r', hr', e', hx⟩ := n2 u hu
    have : r' = r := siUnits_names r' hr' r hr (e'.symm.trans e)
    subst this
    obtain ⟨U, hU, b1, b2, -, b4, -⟩ := hx none (by simp) u.name (by simp)
    refine ⟨U, hU, ?_, ?_, b2⟩
    · rw [b1, e]; rfl
    · rw [b4 rfl, hsym]; rfl
  intro U hU sym hsym
  obtain ⟨res, hacc⟩ := accepted_of_run F.run
  have key := C62_text_is_code std powf P hP T
  rw [hP] at key
  have hst : ∀ U ∈ defs.units, f64Fmt.val (U.mag.intoF64 (buildLib std powf)) ≠ none ∧ Storable (U.mag.intoF64 (buildLib std powf)) := by
    intro V hV
    obtain ⟨r, hr, pre, _, e2, _⟩ := F.units V hV
    exact si_storable hr e2
  refine key Prefix.factor t defs F.run (by rw [F.base]; decide) (fun V hV => (hst V hV).1) 4 (2 ^ 29) ?_ (by norm_num) (by norm_num) U hU sym
    hsym ?_ (hst U hU).2
  · intro V hV k
    obtain ⟨r, hr, pre, e1, _, _⟩ := F.units V hV
    rw [e1 k]
    exact_mod_cast SiExps.of_le (by norm_num) (siUnits_range r hr).2 k
  · have := symbols_plain hacc F.plain hU hsym
    exact fun hc => (this.2 _ hc).2 (by decide)

/-! ### Concrete texts -/

-- In the code generated from src/si.rs, " 3.5  min" read as a time is what `3.5 * minute` is, both as `f32` and as `f64`.
example (P : PlatformFns) (powf : Fl → Fl → Fl) (hP : P.lib = buildLib true powf) (s : Storage) (hs : s.isFloat = true) :
    letI := magOpsInt P.lib; letI := softPrims P; letI := softText coreText
    ∃ (defs : Defs Int Magnitude) (U : UnitDef Int Magnitude) (x : Fl) (r : Raw Fl), U ∈ defs.units ∧ U.name = str!"minute" ∧
      s.base.fmt.val x = some (7 / 2) ∧
      (Fn.unitMul).run 7 [.bare s, .unit ([0, 1, 0, 0, 0, 0, 0] : DimVal Int)] [(.bare [x] : Val Fl Magnitude), .unit U.mag] =
        some (.quantity r) ∧
      deserializeStr Magnitude defs s ([0, 1, 0, 0, 0, 0, 0] : DimVal Int) (str!" 3.5  min") = some (.ok r) := by
  let := magOpsInt P.lib; let := softPrims P; let := softText coreText
  obtain ⟨tokens, defs, -, -, h, h', hb⟩ := C62_si true powf P hP coreText
  obtain ⟨U, hU, e1, e2, e3⟩ := h' _ (List.mem_of_find?_eq_some (p := fun r => decide (r.name = str!"minute"))
    (a := ⟨str!"minute", some (str!"min"), 60, ⟨0, 0, 1, 0, 0, 0, 0⟩⟩) (by rfl)) (str!"min") rfl
  have hw : Words (str!" 3.5  min") [str!"3.5", str!"min"] := splitWs_iff.1 (by decide +kernel)
  have hx : ∃ x, coreText.parseF s.base (str!"3.5") = some x ∧ s.base.fmt.val x = some (7 / 2) := by
    have hf : ∀ t : FloatTy, (coreText.parseF t (str!"3.5")).any (fun x => decide (t.fmt.val x = some (7 / 2))) = true := by
      intro t; cases t <;> decide +kernel
    have := hf s.base
    cases hp : coreText.parseF s.base (str!"3.5") with
    | none => rw [hp] at this; simp at this
    | some x => rw [hp] at this; exact ⟨x, rfl, by simpa using this⟩
  obtain ⟨x, hx, hv⟩ := hx
  have ht : DimVal.vec ([0, 1, 0, 0, 0, 0, 0] : DimVal Int) = defs.baseDimensions.map U.dims.expo := by
    rw [hb]
    simp only [siBaseFields, List.map_cons, List.map_nil, e3]
    decide +kernel
  obtain ⟨r, r1, r2⟩ := (h U hU _ e2 s .const ([0, 1, 0, 0, 0, 0, 0] : DimVal Int) (fun _ _ => trivial) ht).1 _ _ x hs hw hx
  refine ⟨defs, U, x, r, hU, e1, hv, ?_, r1⟩
  rw [hb] at r2
  exact r2

end Diman
