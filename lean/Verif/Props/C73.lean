import Verif.Spec.FmtSpec
import Verif.Props.C57
/-!
# C73: format options
-/
set_option linter.style.haveILetI false
set_option linter.unusedSectionVars false
namespace Diman

/-! ## The number -/

theorem decimalText_fixed (m p : Nat) : FixedDecimal (decimalText m (-(p : Int))) p ((m : ℚ) / 10 ^ p) := by
  have hz : ∀ k : Nat, List.replicate k '0' = (List.replicate k 0).map digitChar := by
    intro k; rw [List.map_replicate]; rfl
  have hval : ∀ l : List Nat, Nat.ofDigits 10 l.reverse = digitsVal l := fun l => (digitsVal_eq l).symm
  obtain ⟨ds, hne, h10, hs, hv, hhead⟩ : ∃ ds : List Nat, ds ≠ [] ∧ (∀ d ∈ ds, d < 10) ∧ showNat m = ds.map digitChar ∧ digitsVal ds = m ∧
      (ds = [0] ∨ ∃ d t, ds = d :: t ∧ d ≠ 0) := by
    rcases Nat.eq_zero_or_pos m with rfl | h
    · exact ⟨[0], by simp, by simp, by rw [showNat]; rfl, rfl, .inl rfl⟩
    · obtain ⟨d, t, h1, h2, h3, h4, -⟩ := showNat_head h
      exact ⟨d :: t, by simp, h1, h2, h3, .inr ⟨d, t, rfl, h4⟩⟩
  unfold decimalText FixedDecimal
  simp only [hs, hval]
  rcases Nat.eq_zero_or_pos p with rfl | hp
  · refine ⟨ds, [], by simpa using h10, hhead, rfl, by simp, by simp [hv]⟩
  · rw [if_neg (by omega)]
    simp only [neg_neg, Int.toNat_natCast, List.length_map, if_neg (show p ≠ 0 by omega)]
    split
    · rename_i hlt
      refine ⟨ds.take (ds.length - p), ds.drop (ds.length - p), ?_, ?_, by rw [List.length_drop]; omega, by simp, ?_⟩
      · rw [List.take_append_drop]; exact h10
      · rcases hhead with rfl | ⟨d, t, rfl, hd⟩
        · simp at hlt; omega
        · obtain ⟨j, hj⟩ : ∃ j, (d :: t).length - p = j + 1 := ⟨(d :: t).length - p - 1, by omega⟩
          rw [hj]
          exact .inr ⟨d, t.take j, by simp, hd⟩
      · rw [List.take_append_drop, hv]
    · rename_i hge
      refine ⟨[0], List.replicate (p - ds.length) 0 ++ ds, ?_, .inl rfl, by simp; omega, ?_, ?_⟩
      · intro x hx
        simp only [List.mem_append, List.mem_singleton, List.mem_replicate] at hx
        rcases hx with rfl | ⟨_, rfl⟩ | hx
        · norm_num
        · norm_num
        · exact h10 x hx
      · rw [hz]; simp [digitChar]
      · rw [digitsVal_append, digitsVal_append, digitsVal_zeros, hv]; simp [digitsVal]

theorem rne_tie (s : ℚ) (z : Int) (h : z ≠ rne s) : |(rne s : ℚ) - s| < |(z : ℚ) - s| ∨ (|(rne s : ℚ) - s| = |(z : ℚ) - s| ∧ rne s % 2 = 0) := by
  rcases lt_or_eq_of_le (rne_nearest s z) with hlt | heq
  · exact .inl hlt
  · refine .inr ⟨heq, ?_⟩
    have hf : ((s.floor : Int) : ℚ) ≤ s := Rat.floor_le s
    have hf' : s < (s.floor : ℚ) + 1 := by
      have := Rat.lt_floor_add_one s
      exact_mod_cast this
    unfold rne at h heq ⊢
    simp only at h heq ⊢
    split_ifs at h heq ⊢ with h1 h2 h3
    · exfalso
      rw [abs_of_nonpos (by linarith)] at heq
      rcases le_or_gt (z : ℚ) s with hz | hz
      · rw [abs_of_nonpos (by linarith)] at heq
        exact h (by exact_mod_cast (by linarith : (z : ℚ) = s.floor))
      · rw [abs_of_pos (by linarith)] at heq
        have : s.floor + 1 ≤ z := by
          by_contra hc
          have : z ≤ s.floor := by omega
          have : (z : ℚ) ≤ s.floor := by exact_mod_cast this
          linarith
        have : ((s.floor + 1 : Int) : ℚ) ≤ z := by exact_mod_cast this
        push_cast at this
        linarith
    · exfalso
      push_cast at heq h
      rw [abs_of_nonneg (by linarith)] at heq
      rcases le_or_gt s (z : ℚ) with hz | hz
      · rw [abs_of_nonneg (by linarith)] at heq
        exact h (by exact_mod_cast (by push_cast; linarith : (z : ℚ) = ((s.floor + 1 : Int) : ℚ)))
      · rw [abs_of_neg (by linarith)] at heq
        have : z ≤ s.floor := by
          by_contra hc
          have : s.floor + 1 ≤ z := by omega
          have : ((s.floor + 1 : Int) : ℚ) ≤ z := by exact_mod_cast this
          push_cast at this
          linarith
        have : (z : ℚ) ≤ s.floor := by exact_mod_cast this
        linarith
    · exact h3
    · omega

theorem precision_exact (o : FmtSpec) (t : FloatTy) (neg : Bool) (n : Nat) (finite : n < t.fmt.infBits) (p : Nat) (precision : o.precision = some p)
    (q : ℚ) (hq : q = ((rne (t.fmt.mag n * pow10 p)).toNat : ℚ) / 10 ^ p) :
    FixedDecimal (o.body t.fmt (.num neg n)) p q ∧ NearestDecimal p q (t.fmt.mag n) ∧ |q - t.fmt.mag n| ≤ 1 / 2 / 10 ^ p ∧
      ((∃ m : Nat, t.fmt.mag n = m / 10 ^ p) → q = t.fmt.mag n) := by
  have hpos : (0 : ℚ) < 10 ^ p := by positivity
  have hpow : pow10 p = (10 : ℚ) ^ p := by rw [pow10_eq]; exact zpow_natCast _ _
  have hmag : 0 ≤ t.fmt.mag n := mag_nonneg _ _
  set S := t.fmt.mag n * 10 ^ p with hS
  have hS0 : 0 ≤ S := by positivity
  have hr0 : 0 ≤ rne S := rne_ge (by exact_mod_cast hS0)
  obtain ⟨k, hk⟩ := Int.eq_ofNat_of_zero_le hr0
  have hbody : o.body t.fmt (.num neg n) = decimalText k (-(p : Int)) := by
    have : t.fmt.isInf n = false := by simpa [Fmt.isInf] using finite
    simp only [FmtSpec.body, this, precision, exactText, hpow]
    rw [← hS, hk]; simp
  have hdist : ∀ m : ℚ, |m / 10 ^ p - t.fmt.mag n| = |m - S| / 10 ^ p := by
    intro m
    have : m / 10 ^ p - t.fmt.mag n = (m - S) / 10 ^ p := by rw [hS]; field_simp
    rw [this, abs_div, abs_of_pos hpos]
  have hkS : ((rne S : Int) : ℚ) = (k : ℚ) := by rw [hk]; rfl
  have hqk : q = (k : ℚ) / 10 ^ p := by rw [hq, hpow, ← hS, hk]; simp
  clear hq
  subst hqk
  refine ⟨by rw [hbody]; exact decimalText_fixed k p, ⟨k, rfl, fun m hm => ?_⟩, ?_, ?_⟩
  · rw [hdist, hdist]
    rcases rne_tie S m (by rw [hk]; exact_mod_cast hm) with h | ⟨h1, h2⟩
    · left
      rw [hkS] at h
      exact div_lt_div_of_pos_right (by exact_mod_cast h) hpos
    · right
      rw [hkS] at h1
      exact ⟨by rw [h1]; norm_cast, by omega⟩
  · rw [hdist]
    have := rne_err S
    rw [hkS] at this
    exact div_le_div_of_nonneg_right this hpos.le
  · rintro ⟨m, hm⟩
    have : S = ((m : Int) : ℚ) := by rw [hS, hm]; field_simp; norm_cast
    have hkm : rne S = m := by rw [this, rne_int]
    rw [hm]
    congr 1
    have : (k : Int) = m := by rw [← hkm, hk]
    exact_mod_cast this

/-- **C73, precision.** With `{:.p?}` a finite number is written with exactly `p` decimals: the best approximation of the stored number with that many,
so it is off by at most half a unit of the last decimal, and exact if `p` decimals suffice. -/
theorem C73_precision (o : FmtSpec) (t : FloatTy) (neg : Bool) (n : Nat) (finite : n < t.fmt.infBits) (p : Nat) (precision : o.precision = some p) :
    ∃ q : ℚ, FixedDecimal (o.body t.fmt (.num neg n)) p q ∧ NearestDecimal p q (t.fmt.mag n) ∧ |q - t.fmt.mag n| ≤ 1 / 2 / 10 ^ p ∧
      ((∃ m : Nat, t.fmt.mag n = m / 10 ^ p) → q = t.fmt.mag n) :=
  ⟨_, precision_exact o t neg n finite p precision _ rfl⟩

/-- Infinities and NaN are written as names, whatever the precision; the sign is that of the number (also of zero), a plus only if asked for, none for
NaN. -/
theorem C73_special (o : FmtSpec) (t : FloatTy) (neg : Bool) (n : Nat) :
    o.body t.fmt (.num neg t.fmt.infBits) = "inf".toList ∧ o.body t.fmt .nan = "NaN".toList ∧ o.sign .nan = [] ∧
    o.sign (.num neg n) = if neg then ['-'] else if o.plus then ['+'] else [] := by
  refine ⟨?_, rfl, rfl, ?_⟩
  · simp [FmtSpec.body, Fmt.isInf]
  · cases neg <;> rfl

/-- **C73, width.** The number is filled up to the width, which is a minimum: nothing is cut off. The filling goes to the left of the number unless the
options say otherwise; if it goes to both sides, they differ by one at most, in favour of the right. -/
theorem C73_width (o : FmtSpec) (t : FloatTy) (x : Fl) : ∃ a b : Nat,
    o.showFloat t.fmt x = List.replicate a o.fill ++ (o.sign x ++ o.body t.fmt x) ++ List.replicate b o.fill ∧
    a + (o.sign x ++ o.body t.fmt x).length + b = max (o.width.getD 0) (o.sign x ++ o.body t.fmt x).length ∧
    (o.align = none ∨ o.align = some .right → b = 0) ∧ (o.align = some .left → a = 0) ∧ (o.align = some .center → a ≤ b ∧ b ≤ a + 1) := by
  unfold FmtSpec.showFloat FmtSpec.pad
  generalize o.sign x ++ o.body t.fmt x = s
  generalize o.width.getD 0 = w
  rcases h : o.align with _ | (_ | _ | _) <;> simp only [Option.getD]
  · exact ⟨w - s.length, 0, by simp, by omega, by simp, by simp, by simp⟩
  · exact ⟨0, w - s.length, by simp, by omega, by simp, by simp, by simp⟩
  · exact ⟨_, _, rfl, by omega, by simp, by simp, fun _ => by omega⟩
  · exact ⟨w - s.length, 0, by simp, by omega, by simp, by simp, by simp⟩

theorem showFloat_default (f : Fmt) (x : Fl) : ({} : FmtSpec).showFloat f x = showFloat f x := by
  cases x with
  | nan => simp [FmtSpec.showFloat, FmtSpec.pad, FmtSpec.sign, FmtSpec.body, showFloat]
  | num neg n => cases neg <;> simp [FmtSpec.showFloat, FmtSpec.pad, FmtSpec.sign, FmtSpec.body, showFloat]

/-! ## Quantities -/
section
variable {E : Type} [Exponent E] [FieldOps E] [ShowExponent E] [MagOps E Magnitude] [Prims Fl Magnitude]

/-- **C73.** Options change how the number is written and nothing else: the text of the unit is the one of `{:?}`, for all options, all dimensions and all
values, and if `{:?}` does not panic no options make it panic. Vectors are written as with `{:?}`. -/
theorem C73_options : letI := softText coreText
    ∀ (defs : Defs E Magnitude) (s : Storage) (d : DimVal E),
    (∀ (o : FmtSpec) (r : Raw Fl), debugWith o defs s d r = none) ∨
    ∃ unit : Str, (∀ (o : FmtSpec) (r : Raw Fl), debugWith o defs s d r = some (o.showRaw s r ++ unit)) ∧
      ∀ (r : Raw Fl), debugFmt Fl defs d (showRaw Magnitude s r) = some (showRaw Magnitude s r ++ unit) := by
  letI := softText coreText
  intro defs s d
  simp only [debugWith, debugFmt, bind, Option.bind, pure]
  cases unitTable (K := Fl) Magnitude defs.baseDimensions (defs.units.filter fun u => MagOps.isOne E u.mag) with
  | none => exact .inl fun _ _ => rfl
  | some units =>
    simp only
    cases h : debugUnitText defs.baseDimensions units d with
    | none => exact .inl fun _ _ => rfl
    | some text => exact .inr ⟨text, fun _ _ => rfl, fun _ => rfl⟩

/-- Without options the text is that of `{:?}`; the vectors have no options at all. -/
theorem C73_default : letI := softText coreText
    ∀ (defs : Defs E Magnitude) (s : Storage) (d : DimVal E) (r : Raw Fl),
    debugWith {} defs s d r = debugFmt Fl defs d (showRaw Magnitude s r) ∧
    (s.isFloat = false → ∀ o : FmtSpec, debugWith o defs s d r = debugFmt Fl defs d (showRaw Magnitude s r)) := by
  letI := softText coreText
  intro defs s d r
  have hv : s.isFloat = false → ∀ o : FmtSpec, o.showRaw s r = showRaw Magnitude s r := by
    intro h o; simp [FmtSpec.showRaw, showRaw, h]; rfl
  refine ⟨?_, fun h o => by rw [debugWith, hv h]⟩
  rw [debugWith]
  congr 1
  by_cases h : s.isFloat = true
  · have : (({} : FmtSpec).showFloat s.base.fmt) = showFloat s.base.fmt := funext (showFloat_default _)
    simp [FmtSpec.showRaw, showRaw, h, this]; rfl
  · exact hv (by simpa using h) _
end

/-! ## Reading what was written with options -/

theorem plain_decimalText (m : Nat) (e : Int) : PlainText (decimalText m e) := by
  refine ⟨decimalText_chars.1, fun c hc => ?_⟩
  rcases decimalText_chars.2.1 c hc with rfl | ⟨d, hd, rfl⟩
  · decide
  · exact ⟨(digitChar_props hd).1, (digitChar_props hd).2.1⟩

/-- The number in the text of `{:o?}`: one word, which reads as `x` itself if no precision is given, and as the float nearest to the decimal otherwise. -/
theorem parseFloat_body (o : FmtSpec) (t : FloatTy) (x : Fl) (valid : t.fmt.Valid x) :
    PlainText (o.sign x ++ o.body t.fmt x) ∧ ∃ y, t.fmt.Valid y ∧ parseFloat t.fmt (o.sign x ++ o.body t.fmt x) = some y ∧
      ((o.precision = none ∨ x = .nan ∨ ∃ neg, x = .num neg t.fmt.infBits) → y = x) ∧
      ∀ p neg n, o.precision = some p → x = .num neg n → n < t.fmt.infBits →
        ∃ q, FixedDecimal (o.body t.fmt x) p q ∧ NearestDecimal p q (t.fmt.mag n) ∧ y = .num neg (t.fmt.round q) := by
  cases x with
  | nan => exact ⟨(⟨by decide, by decide⟩ : PlainText "NaN".toList), .nan, trivial, rfl, fun _ => rfl, by simp⟩
  | num s n =>
    have hsign : ∀ c ∈ o.sign (.num s n), isWs c = false ∧ c ∉ reservedChars := by
      cases s <;> simp only [FmtSpec.sign]
      · split <;> decide
      · decide
    have hplain : ∀ u : Str, PlainText u → PlainText (o.sign (.num s n) ++ u) := by
      intro u hu
      refine ⟨by simp [hu.1], fun c hc => ?_⟩
      rcases List.mem_append.1 hc with hc | hc
      · exact hsign c hc
      · exact hu.2 c hc
    have hsplit : ∀ u : Str, (∀ c ∈ u.head?, c ≠ '-' ∧ c ≠ '+') → splitSign (o.sign (.num s n) ++ u) = (s, u) := by
      intro u hu
      have h0 : splitSign u = (false, u) := by
        cases u with
        | nil => rfl
        | cons c cs =>
          simp only [splitSign]
          rw [if_neg (hu c (by simp)).1, if_neg (hu c (by simp)).2]
      cases s <;> simp only [FmtSpec.sign]
      · split
        · rfl
        · simpa using h0
      · rfl
    have hdec : ∀ m e, parseFloat t.fmt (o.sign (.num s n) ++ decimalText m e) = some (.num s (t.fmt.round ((m : ℚ) * pow10 e))) := by
      intro m e
      have := hsplit (decimalText m e) (fun c hc => by
        obtain ⟨d, hd, rfl⟩ := decimalText_chars.2.2 c hc
        have := digitChar_props hd
        exact ⟨this.2.2.2.1, this.2.2.1⟩)
      simp only [parseFloat, this, readNumber_decimalText, pow10_eq]
    by_cases hi : t.fmt.isInf n = true
    · have : n = t.fmt.infBits := le_antisymm valid (by simpa [Fmt.isInf] using hi)
      subst this
      have hb : o.body t.fmt (.num s t.fmt.infBits) = "inf".toList := by simp [FmtSpec.body, hi]
      rw [hb]
      refine ⟨hplain _ ⟨by decide, by decide⟩, .num s t.fmt.infBits, valid, ?_, fun _ => rfl, ?_⟩
      · have := hsplit "inf".toList (by decide)
        simp only [parseFloat, this]
        rfl
      · rintro p neg n - h hn
        cases h
        omega
    · have hlt : n < t.fmt.infBits := by simpa [Fmt.isInf] using hi
      cases hp : o.precision with
      | none =>
        have hb : ∃ m e, o.body t.fmt (.num s n) = decimalText m e ∧ t.fmt.round ((m : ℚ) * pow10 e) = n := by
          by_cases h0 : n = 0
          · subst h0
            refine ⟨0, 0, ?_, by simp [round_zero]⟩
            have h00 : decimalText 0 0 = ['0'] := by decide +kernel
            rw [h00]
            simp [FmtSpec.body, hi, hp]
          · exact ⟨(shortest t.fmt n).1, (shortest t.fmt n).2, by simp [FmtSpec.body, hi, hp, h0], by
              rw [pow10_eq]; exact shortest_reads t.fmt (by cases t <;> decide) (by cases t <;> decide) (n := n) valid⟩
        obtain ⟨m, e, hb, hr⟩ := hb
        rw [hb]
        exact ⟨hplain _ (plain_decimalText m e), _, by rw [hr]; exact valid, hdec m e, fun _ => by rw [hr], by simp⟩
      | some p =>
        obtain ⟨h1, h2, -⟩ := precision_exact o t s n hlt p hp _ rfl
        set q : ℚ := ((rne (t.fmt.mag n * pow10 p)).toNat : ℚ) / 10 ^ p with hq
        have hb : o.body t.fmt (.num s n) = exactText t.fmt p n := by simp [FmtSpec.body, hi, hp]
        refine ⟨?_, .num s (t.fmt.round q), ?_, ?_, ?_, ?_⟩
        · rw [hb]; exact hplain _ (plain_decimalText _ _)
        · exact round_le_inf _ _
        · rw [hb, exactText, hdec]
          rw [pow10_eq (-(p : Int)), zpow_neg, zpow_natCast, ← div_eq_mul_inv]
        · rintro (h | h | ⟨_, h⟩)
          · cases h
          · cases h
          · cases h; omega
        · rintro p' neg n' h h' -
          cases h; cases h'
          exact ⟨q, h1, h2, rfl⟩

section
variable {E K M : Type} [Exponent E] [LawfulExponent E] [FieldOps E] [LawfulFieldOps E] [TotalFields E] [WrittenExponent E]
  [ShowExponent E] [LawfulShow E] [MagOps E M] [Prims K M] [TextPrims K M] [LawfulText E K M]

/-- A number with blanks around it and the printed unit behind is read as that number. -/
theorem read_padded (factor : Prefix → M) (t : UnresolvedTemplates E M) (defs : Defs E M)
    (accepted : runUnitSystem factor t = some (defs, []))
    (literals : (UnresolvedTemplates.expand (MagOps.one E) factor t).LitExponents (WrittenExponent.Ok : E → Prop))
    (distinct : defs.baseDimensions.Nodup)
    (hasBase : ∀ d ∈ t.dimensions, d.rhs = .base () → ∃ v ∈ t.units, v.definition = .base d.name)
    (symbols : t.PlainSymbols)
    (finite : ∀ U ∈ defs.units, TextPrims.finite M (Prims.into .f64 U.mag : K) = true)
    (d : DimVal E) (fields : d.length = defs.baseDimensions.length)
    (integer : ∀ e ∈ d, ∃ i : Int, InI32 i ∧ e = Exponent.ofInt i)
    (s : Storage) (float : s.isFloat = true) (num : Str) (plain : PlainText num) (y : K) (valid : LawfulText.Valid E M s.base y)
    (reads : TextPrims.parseF M s.base num = some y) (a b : Nat) :
    ∃ text, debugFmt K defs d (List.replicate a ' ' ++ num ++ List.replicate b ' ') = some text ∧ deserializeStr M defs s d text = some (.ok [y]) := by
  obtain ⟨terms, h1, h2, us, h3, h4, h5, h6⟩ := printed_units (K := K) factor t defs accepted literals distinct hasBase symbols d fields
    integer (List.replicate a ' ' ++ num ++ List.replicate b ' ')
  refine ⟨_, h1, ?_⟩
  obtain ⟨o, ho⟩ := C28_compiles (K := K) factor t defs accepted literals distinct finite s d
    (List.replicate a ' ' ++ num ++ List.replicate b ' ' ++ (terms.map UnitTerm.text).flatten)
  rw [ho]
  have hblank : ∀ k, ∀ c ∈ List.replicate k ' ', isWs c = true := by
    intro k c hc
    rw [(List.mem_replicate.1 hc).2]; decide
  obtain ⟨w1, w2⟩ := words_terms terms fun u hu => ⟨(h2 u hu).1, fun c hc => ((h2 u hu).2 c hc).1⟩
  have hw : splitWs (List.replicate a ' ' ++ num ++ List.replicate b ' ' ++ (terms.map UnitTerm.text).flatten) = num :: terms.map UnitTerm.word := by
    rw [List.append_assoc, List.append_assoc, splitWs_gap (hblank a),
      splitWs_word plain.1 (fun c hc => (plain.2 c hc).1) (rest := List.replicate b ' ' ++ (terms.map UnitTerm.text).flatten), splitWs_gap (hblank b),
      splitWs_iff.2 w1]
    intro c hc
    cases b with
    | zero => simpa using w2 c (by simpa using hc)
    | succ b =>
      simp only [List.replicate_succ, List.cons_append, List.head?_cons, Option.mem_def, Option.some.injEq] at hc
      subst hc; decide
  unfold deserializeStr at ho
  rw [bindM_eq_some] at ho
  obtain ⟨tbl, ht, ho⟩ := ho
  simp only [float, if_true, pure_eq_some] at ho
  rw [← ho]
  unfold visitStrFloat
  rw [splitWs_trim, hw]
  simp only [reads, Outcome.orError, Outcome.bind, h6 tbl ht, ifDimensionsMatch, if_true,
    LawfulText.ofF64_one (E := E), LawfulText.mul_one valid]
end

section
variable (P : PlatformFns)

/-- **C73, reading back (integer exponents).** Text printed with options that fill with blanks, whatever sign, width, alignment and precision, is accepted
by the deserializer for that dimension and read as the number that was written. -/
theorem C73_read_back_int (platform : P.lib.Ones) :
    letI := magOpsInt P.lib; letI := softPrims P; letI := softText coreText
    ∀ (factor : Prefix → Magnitude) (t : UnresolvedTemplates Int Magnitude) (defs : Defs Int Magnitude)
    (_ : runUnitSystem factor t = some (defs, []))
    (_ : defs.baseDimensions.Nodup)
    (_ : ∀ d ∈ t.dimensions, d.rhs = .base () → ∃ v ∈ t.units, v.definition = .base d.name)
    (_ : t.PlainSymbols)
    (_ : ∀ U ∈ defs.units, TextPrims.finite Magnitude (Prims.into .f64 U.mag : Fl) = true)
    (d : DimVal Int) (_ : d.length = defs.baseDimensions.length) (_ : ∀ e ∈ d, InI32 e)
    (s : Storage) (_ : s.isFloat = true) (x : Fl) (_ : s.ValidFloat x) (o : FmtSpec) (_ : o.fill = ' '),
    ∃ out y, debugWith o defs s d [x] = some out ∧ deserializeStr Magnitude defs s d out = some (.ok [y]) ∧ ReadBack o s.base x y := by
  letI := magOpsInt P.lib; letI := softPrims P; letI := softText coreText; letI := softLawfulInt P coreText platform coreText_roundTrips
  intro factor t defs ha hn hb hs hf d hl hi s hfl x hv o ho
  obtain ⟨h1, y, h2, h3, h4, h5⟩ := parseFloat_body o s.base x hv
  obtain ⟨a, b, hab, -⟩ := C73_width o s.base x
  obtain ⟨out, h6, h7⟩ := read_padded (K := Fl) factor t defs ha (C18_literals_int (UnresolvedTemplates.expand (MagOps.one Int) factor t)) hn hb hs hf d hl
    (fun e he => ⟨e, hi e he, rfl⟩) s hfl _ h1 y h2 h3 a b
  refine ⟨out, y, ?_, h7, h4, h5⟩
  rw [debugWith, FmtSpec.showRaw, if_pos hfl]
  simp only [List.map_cons, List.map_nil, List.flatten_cons, List.flatten_nil, List.append_nil]
  rw [hab, ho]; exact h6

/-- **C73, reading back (rational exponents).** The same for dimensions with integer exponents in a system with rational ones. -/
theorem C73_read_back_rational (platform : P.lib.Ones) :
    letI := magOpsRatio P.lib; letI := softPrims P; letI := softText coreText
    ∀ (factor : Prefix → Magnitude) (t : UnresolvedTemplates Ratio Magnitude) (defs : Defs Ratio Magnitude)
    (_ : runUnitSystem factor t = some (defs, []))
    (_ : (UnresolvedTemplates.expand (MagOps.one Ratio) factor t).LitExponents (WrittenExponent.Ok : Ratio → Prop))
    (_ : defs.baseDimensions.Nodup)
    (_ : ∀ d ∈ t.dimensions, d.rhs = .base () → ∃ v ∈ t.units, v.definition = .base d.name)
    (_ : t.PlainSymbols)
    (_ : ∀ U ∈ defs.units, TextPrims.finite Magnitude (Prims.into .f64 U.mag : Fl) = true)
    (d : DimVal Ratio) (_ : d.length = defs.baseDimensions.length) (_ : ∀ e ∈ d, ∃ i : Int, InI32 i ∧ e = ⟨i, 1⟩)
    (s : Storage) (_ : s.isFloat = true) (x : Fl) (_ : s.ValidFloat x) (o : FmtSpec) (_ : o.fill = ' '),
    ∃ out y, debugWith o defs s d [x] = some out ∧ deserializeStr Magnitude defs s d out = some (.ok [y]) ∧ ReadBack o s.base x y := by
  letI := magOpsRatio P.lib; letI := softPrims P; letI := softText coreText; letI := softLawfulRatio P coreText platform coreText_roundTrips
  intro factor t defs ha hlit hn hb hs hf d hl hi s hfl x hv o ho
  obtain ⟨h1, y, h2, h3, h4, h5⟩ := parseFloat_body o s.base x hv
  obtain ⟨a, b, hab, -⟩ := C73_width o s.base x
  obtain ⟨out, h6, h7⟩ := read_padded (K := Fl) factor t defs ha hlit hn hb hs hf d hl hi s hfl _ h1 y h2 h3 a b
  refine ⟨out, y, ?_, h7, h4, h5⟩
  rw [debugWith, FmtSpec.showRaw, if_pos hfl]
  simp only [List.map_cons, List.map_nil, List.flatten_cons, List.flatten_nil, List.append_nil]
  rw [hab, ho]; exact h6
end

/-! ## Examples -/

/-- `{:.2}` of 0.1, `{:.0}` of 0.5 and 1.5 (ties to even), `{:.1}` of 0.25 and 0.35 (which is below 0.35), `{:+.3}` of -0.0, `{:8.1}`, `{:*<8.1}`, `{:^8.1}`
of 12.25, `{:+}` of an infinity, `{:.3}` of NaN. -/
example :
    ({ precision := some 2 } : FmtSpec).showFloat f64Fmt (.num false 0x3fb999999999999a) = "0.10".toList ∧
    ({ precision := some 0 } : FmtSpec).showFloat f64Fmt (.num false 0x3fe0000000000000) = "0".toList ∧
    ({ precision := some 0 } : FmtSpec).showFloat f64Fmt (.num false 0x3ff8000000000000) = "2".toList ∧
    ({ precision := some 1 } : FmtSpec).showFloat f64Fmt (.num false 0x3fd0000000000000) = "0.2".toList ∧
    ({ precision := some 1 } : FmtSpec).showFloat f64Fmt (.num false 0x3fd6666666666666) = "0.3".toList ∧
    ({ plus := true, precision := some 3 } : FmtSpec).showFloat f64Fmt (.num true 0) = "-0.000".toList ∧
    ({ width := some 8, precision := some 1 } : FmtSpec).showFloat f64Fmt (.num false 0x4028800000000000) = "    12.2".toList ∧
    ({ fill := '*', align := some .left, width := some 8, precision := some 1 } : FmtSpec).showFloat f64Fmt (.num false 0x4028800000000000) = "12.2****".toList ∧
    ({ align := some .center, width := some 7, precision := some 1 } : FmtSpec).showFloat f64Fmt (.num false 0x4028800000000000) = " 12.2  ".toList ∧
    ({ plus := true } : FmtSpec).showFloat f64Fmt (.num false f64Fmt.infBits) = "+inf".toList ∧
    ({ precision := some 3, plus := true } : FmtSpec).showFloat f64Fmt .nan = "NaN".toList := by decide +kernel
end Diman
