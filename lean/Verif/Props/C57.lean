import Verif.Proofs.CoreText
import Verif.Props.C27Float
/-!
# C57: the numbers in printed and parsed quantities
The number of a quantity is printed by core's `Display` and read by core's `FromStr` (`Model/CoreText`). With these, C27's round trip for
IEEE floats needs no assumption about text.
-/
set_option linter.unusedSectionVars false
set_option linter.style.haveILetI false
namespace Diman

theorem emin_nonpos (t : FloatTy) : t.fmt.emin ≤ 0 := by cases t <;> decide

/-- **C57, round trip**: every float, NaN and infinities included, is read back exactly from its text. -/
theorem C57_round_trip (t : FloatTy) (x : Fl) (valid : t.fmt.Valid x) : coreText.parseF t (coreText.showF t x) = some x :=
  coreText_roundTrips.parse_show t x valid

theorem showNat_head {m : Nat} (h : 0 < m) : ∃ d ds, (∀ x ∈ d :: ds, x < 10) ∧ showNat m = (d :: ds).map digitChar ∧ digitsVal (d :: ds) = m ∧
    d ≠ 0 ∧ (d :: ds).getLast (by simp) = m % 10 := by
  induction m using Nat.strong_induction_on with
  | _ m ih =>
    unfold showNat
    split
    · rename_i hlt
      exact ⟨m, [], by simpa using hlt, rfl, by simp [digitsVal], by omega, by simp; omega⟩
    · rename_i hge
      obtain ⟨d, ds, h1, h2, h3, h4, -⟩ := ih (m / 10) (by omega) (by omega)
      refine ⟨d, ds ++ [m % 10], ?_, by rw [h2]; simp, ?_, h4, by simp⟩
      · intro x hx
        rw [← List.cons_append] at hx
        rcases List.mem_append.1 hx with hx | hx
        · exact h1 x hx
        · simp at hx; omega
      · rw [← List.cons_append, digitsVal_append, h3]
        simp [digitsVal]; omega

/-- A number is written out in full without superfluous characters. -/
theorem decimalText_plain {m : Nat} (h0 : 0 < m) {e : Int} (h10 : m % 10 ≠ 0) : PlainDecimal (decimalText m e) ((m : ℚ) * 10 ^ e) := by
  obtain ⟨d, ds, hd, hs, hv, hd0, hlast⟩ := showNat_head h0
  have hz : ∀ k : Nat, List.replicate k '0' = (List.replicate k 0).map digitChar := by
    intro k; rw [List.map_replicate]; rfl
  have hval : ∀ l : List Nat, Nat.ofDigits 10 l.reverse = digitsVal l := fun l => (digitsVal_eq l).symm
  unfold decimalText PlainDecimal
  simp only [hs, hval]
  split
  · rename_i h
    obtain ⟨k, rfl⟩ := Int.eq_ofNat_of_zero_le h
    refine ⟨(d :: ds) ++ List.replicate k 0, [], ?_, .inr ⟨d, ds ++ List.replicate k 0, rfl, hd0⟩, .inl ⟨rfl, ?_⟩, ?_⟩
    · intro x hx
      simp only [List.append_nil, List.mem_append, List.mem_replicate] at hx
      rcases hx with hx | ⟨_, rfl⟩
      · exact hd x hx
      · norm_num
    · rw [Int.toNat_natCast, hz, List.map_append]
    · rw [List.append_nil, digitsVal_append, digitsVal_zeros, hv]; simp
  · rename_i h
    obtain ⟨k, hk⟩ := Int.eq_ofNat_of_zero_le (a := -e) (by omega)
    obtain rfl : e = -(k : Int) := by omega
    have hk0 : k ≠ 0 := by rintro rfl; simp at h
    simp only [neg_neg, Int.toNat_natCast, List.length_map]
    have hl : ∃ l, d :: ds = l ++ [m % 10] := by
      rw [← hlast]; exact ⟨_, (List.dropLast_append_getLast (by simp)).symm⟩
    obtain ⟨l, hl⟩ := hl
    clear hlast
    generalize hL : d :: ds = L at *
    have hlen : L.length = l.length + 1 := by rw [hl]; simp
    split
    · rename_i hlt
      refine ⟨L.take (L.length - k), L.drop (L.length - k), ?_, .inr ?_, .inr ⟨?_, ?_⟩, ?_⟩
      · rw [List.take_append_drop]; exact hd
      · obtain ⟨j, hj⟩ : ∃ j, L.length - k = j + 1 := ⟨L.length - k - 1, by omega⟩
        rw [hj, ← hL]
        exact ⟨d, ds.take j, by simp, hd0⟩
      · refine ⟨l.drop (L.length - k), m % 10, ?_, h10⟩
        rw [hlen]
        generalize hj : l.length + 1 - k = j
        rw [hl, List.drop_append_of_le_length (by omega)]
      · rw [← List.map_take, ← List.map_drop]
      · rw [List.take_append_drop, hv, List.length_drop, show L.length - (L.length - k) = k by omega]
        rw [zpow_neg, zpow_natCast]; rfl
    · rename_i hge
      refine ⟨[0], List.replicate (k - L.length) 0 ++ L, ?_, .inl rfl, .inr ⟨?_, ?_⟩, ?_⟩
      · intro x hx
        simp only [List.mem_append, List.mem_replicate, List.mem_singleton] at hx
        rcases hx with rfl | ⟨_, rfl⟩ | hx
        · norm_num
        · norm_num
        · exact hd x hx
      · refine ⟨List.replicate (k - L.length) 0 ++ l, m % 10, ?_, h10⟩
        rw [List.append_assoc, ← hl]
      · rw [hz, ← List.map_append]; rfl
      · rw [digitsVal_append, digitsVal_append, digitsVal_zeros, hv, List.length_append, List.length_replicate,
          show k - L.length + L.length = k by omega, zpow_neg, zpow_natCast]
        simp [digitsVal]; rfl

/-- **C57, what is printed**: a finite non-zero float is printed as a sign and a decimal `m · 10^e` written out in full, such that it reads
as the float, no decimal that reads as the float has fewer digits, and none with its last digit at the same place is closer. -/
theorem C57_printed (t : FloatTy) (neg : Bool) (n : Nat) (nonzero : 0 < n) (finite : n < t.fmt.infBits) :
    ∃ (m : Nat) (e : Int) (text : Str),
      coreText.showF t (.num neg n) = (if neg then ['-'] else []) ++ text ∧
      PlainDecimal text ((m : ℚ) * 10 ^ e) ∧
      t.fmt.ReadsAs m e n ∧
      (∀ m' e', t.fmt.ReadsAs m' e' n → (Nat.digits 10 m).length ≤ (Nat.digits 10 m').length) ∧
      (∀ m', t.fmt.ReadsAs m' e n → |(m : ℚ) * 10 ^ e - t.fmt.mag n| ≤ |(m' : ℚ) * 10 ^ e - t.fmt.mag n|) := by
  have hp := fmt_p t
  have he := emin_nonpos t
  have hr := shortest_reads t.fmt hp he finite.le
  have hd := shortest_digits t.fmt hp he finite.le nonzero
  have hm : 0 < (shortest t.fmt n).1 := by
    rcases Nat.eq_zero_or_pos (shortest t.fmt n).1 with h | h
    · unfold Fmt.ReadsAs at hr
      rw [h, Nat.cast_zero, zero_mul, round_zero] at hr
      omega
    · exact h
  refine ⟨(shortest t.fmt n).1, (shortest t.fmt n).2, decimalText (shortest t.fmt n).1 (shortest t.fmt n).2, ?_, ?_, hr, hd,
    shortest_closest t.fmt hp he finite.le⟩
  · show showFloat t.fmt (.num neg n) = _
    have h1 : t.fmt.isInf n = false := by simpa [Fmt.isInf] using finite
    have h2 : n ≠ 0 := by omega
    simp only [showFloat, h1, h2, Bool.false_eq_true, if_false]
  · refine decimalText_plain hm fun h10 => ?_
    generalize (shortest t.fmt n).1 = m at *
    generalize (shortest t.fmt n).2 = e at *
    obtain ⟨k, rfl⟩ : ∃ k, m = 10 * k := ⟨m / 10, by omega⟩
    have h' : t.fmt.ReadsAs k (e + 1) n := by
      unfold Fmt.ReadsAs at hr ⊢
      rw [zpow_add₀ (by norm_num)]
      rw [← hr]
      congr 1
      push_cast
      ring
    have := hd k (e + 1) h'
    rw [Nat.digits_def' (by norm_num) hm, Nat.mul_div_cancel_left _ (by norm_num)] at this
    simp at this

/-- **C57, special values**: zeros, infinities and NaN. -/
theorem C57_special (t : FloatTy) :
    coreText.showF t .nan = "NaN".toList ∧
    coreText.showF t (.num false 0) = "0".toList ∧ coreText.showF t (.num true 0) = "-0".toList ∧
    coreText.showF t (.num false t.fmt.infBits) = "inf".toList ∧ coreText.showF t (.num true t.fmt.infBits) = "-inf".toList := by
  cases t <;> decide +kernel

/-- **C57, texts that are accepted**: exactly an optional sign, then a decimal numeral or one of `nan`, `inf`, `infinity` in any case. -/
theorem C57_accepts (t : FloatTy) (s : Str) :
    coreText.parseF t s ≠ none ↔ ∃ neg u, SignedText s neg u ∧
      ((∃ e q, DecimalNumeral u e q) ∨ u.map Char.toLower ∈ ["nan".toList, "inf".toList, "infinity".toList]) := by
  show parseFloat t.fmt s ≠ none ↔ _
  unfold parseFloat
  constructor
  · intro h
    refine ⟨(splitSign s).1, (splitSign s).2, signedText_iff.2 rfl, ?_⟩
    cases hn : readNumber (splitSign s).2 with
    | some q => exact .inl (readNumber_some hn)
    | none =>
      right
      rw [hn] at h
      simp only [readInfNan] at h
      split at h
      · rename_i h1; rw [h1]; simp
      · split at h
        · rename_i h1; rcases h1 with h1 | h1 <;> rw [h1] <;> simp
        · exact absurd rfl h
  · rintro ⟨neg, u, hs, h⟩
    rw [signedText_iff.1 hs]
    rcases h with ⟨e, q, h⟩ | h
    · obtain ⟨q', h1, -⟩ := readNumber_of h
      rw [h1]; simp
    · cases hn : readNumber u with
      | some q => simp
      | none =>
        simp only [readInfNan]
        simp only [List.mem_cons, List.not_mem_nil, or_false] at h
        split
        · simp
        · rename_i h1
          rw [if_pos (h.resolve_left h1)]
          simp

/-- **C57, what is read**: a numeral (with an exponent in any sensible range) is read as a nearest float of its type, or, if it is out of
range, as infinity; the sign is the text's. -/
theorem C57_reads (t : FloatTy) (s u : Str) (neg : Bool) (e : Int) (q : ℚ) (signed : SignedText s neg u) (numeral : DecimalNumeral u e q)
    (sensible : |e| < 655360) :
    ∃ n, coreText.parseF t s = some (.num neg n) ∧ n ≤ t.fmt.infBits ∧
      (n < t.fmt.infBits → ∀ n', |t.fmt.mag n - q| ≤ |t.fmt.mag n' - q|) ∧
      (n = t.fmt.infBits → ∀ n' < t.fmt.infBits, t.fmt.mag n' < q) ∧
      (∀ n', n' ≤ t.fmt.infBits → t.fmt.mag n' = q → n = n') := by
  obtain ⟨q', h1, h2⟩ := readNumber_of numeral
  rw [h2 sensible] at h1
  have hp := fmt_p t
  have hq : 0 ≤ q := by
    obtain ⟨i, f, -, -, -, -, -, -, -, rfl⟩ := numeral
    positivity
  refine ⟨t.fmt.round q, ?_, round_le_inf _ _, ?_, ?_, ?_⟩
  · show parseFloat t.fmt s = _
    unfold parseFloat
    rw [signedText_iff.1 signed]
    simp only [h1]
  · intro ho n'
    rcases hq.eq_or_lt with rfl | hq
    · rw [round_zero, mag_zero]; simp
    · exact round_nearest _ hp hq ho n'
  · intro hinf n' hn'
    by_contra hle
    have := round_mono t.fmt hp (not_lt.1 hle)
    rw [hinf, round_mag _ hp hn'.le] at this
    omega
  · rintro n' hn' rfl
    exact round_mag _ hp hn'

/-- **C57, infinities and NaN** are read under their names. -/
theorem C57_reads_special (t : FloatTy) (s u : Str) (neg : Bool) (signed : SignedText s neg u) :
    (u.map Char.toLower = "nan".toList → coreText.parseF t s = some .nan) ∧
    (u.map Char.toLower = "inf".toList ∨ u.map Char.toLower = "infinity".toList → coreText.parseF t s = some (.num neg t.fmt.infBits)) := by
  have hno : ∀ c cs, u = c :: cs → digitVal c = none → c ≠ '.' → readNumber u = none := by
    rintro c cs rfl hc hp
    have h1 : spanDigits (c :: cs) = ([], c :: cs) := by simp [spanDigits, hc]
    have h2 : readFraction (c :: cs) = ([], c :: cs) := by
      unfold readFraction
      split
      · rename_i cs' heq
        simp at heq
        exact absurd heq.1 hp
      · rfl
    simp [readNumber, h1, h2]
  have key : ∀ (l : Char) (ls : List Char), u.map Char.toLower = l :: ls → (l = 'n' ∨ l = 'i') → readNumber u = none := by
    intro l ls h hl
    cases u with
    | nil => cases h
    | cons c cs =>
      simp only [List.map_cons, List.cons.injEq] at h
      refine hno c cs rfl ?_ ?_
      · by_contra hne
        obtain ⟨d, hd⟩ := Option.ne_none_iff_exists'.1 hne
        obtain ⟨h10, rfl⟩ := digitVal_some hd
        have : (digitChar d).toLower ≠ 'n' ∧ (digitChar d).toLower ≠ 'i' := by interval_cases d <;> decide
        rcases hl with rfl | rfl
        · exact this.1 h.1
        · exact this.2 h.1
      · rintro rfl
        rcases hl with rfl | rfl <;> exact absurd h.1 (by decide)
  show (_ → parseFloat t.fmt s = _) ∧ (_ → parseFloat t.fmt s = _)
  unfold parseFloat
  rw [signedText_iff.1 signed]
  constructor
  · intro h
    have h1 := key _ _ h (.inl rfl)
    simp only [h1, readInfNan]
    rw [if_pos h]
  · intro h
    have h1 : readNumber u = none := by
      rcases h with h | h
      · exact key _ _ h (.inr rfl)
      · exact key _ _ h (.inr rfl)
    simp only [h1, readInfNan]
    rw [if_neg, if_pos h]
    rcases h with h | h <;> rw [h] <;> decide

/-! ## Quantities: C27 without assumptions about text -/
section
variable (P : PlatformFns)

/-- **C27 for IEEE floats and core's text, integer exponents**: a quantity, scalar or vector, whatever its number, is deserialized from
what it serializes to. -/
theorem C27_core_int_partial (platform : P.lib.Ones) :
    letI := magOpsInt P.lib; letI := softPrims P; letI := softText coreText
    ∀ (factor : Prefix → Magnitude) (t : UnresolvedTemplates Int Magnitude) (defs : Defs Int Magnitude)
    (_ : runUnitSystem factor t = some (defs, []))
    (_ : defs.baseDimensions.Nodup)
    (_ : ∀ d ∈ t.dimensions, d.rhs = .base () → ∃ v ∈ t.units, v.definition = .base d.name)
    (_ : t.PlainSymbols)
    (_ : ∀ U ∈ defs.units, TextPrims.finite Magnitude (Prims.into .f64 U.mag : Fl) = true)
    (d : DimVal Int) (_ : d.length = defs.baseDimensions.length) (_ : ∀ e ∈ d, InI32 e)
    (s : Storage) (xs : Raw Fl) (_ : xs.length = s.numDims) (_ : ∀ x ∈ xs, s.ValidFloat x),
    ∃ out, serializeStr Magnitude defs s d xs = some out ∧ deserializeStr Magnitude defs s d out = some (.ok xs) :=
  C27_float_int_partial P coreText platform coreText_roundTrips

/-- **C27 for IEEE floats and core's text, rational exponents.** -/
theorem C27_core_rational_partial (platform : P.lib.Ones) :
    letI := magOpsRatio P.lib; letI := softPrims P; letI := softText coreText
    ∀ (factor : Prefix → Magnitude) (t : UnresolvedTemplates Ratio Magnitude) (defs : Defs Ratio Magnitude)
    (_ : runUnitSystem factor t = some (defs, []))
    (_ : (UnresolvedTemplates.expand (MagOps.one Ratio) factor t).LitExponents (WrittenExponent.Ok : Ratio → Prop))
    (_ : defs.baseDimensions.Nodup)
    (_ : ∀ d ∈ t.dimensions, d.rhs = .base () → ∃ v ∈ t.units, v.definition = .base d.name)
    (_ : t.PlainSymbols)
    (_ : ∀ U ∈ defs.units, TextPrims.finite Magnitude (Prims.into .f64 U.mag : Fl) = true)
    (d : DimVal Ratio) (_ : d.length = defs.baseDimensions.length) (_ : ∀ e ∈ d, ∃ i : Int, InI32 i ∧ e = ⟨i, 1⟩)
    (s : Storage) (xs : Raw Fl) (_ : xs.length = s.numDims) (_ : ∀ x ∈ xs, s.ValidFloat x),
    ∃ out, serializeStr Magnitude defs s d xs = some out ∧ deserializeStr Magnitude defs s d out = some (.ok xs) :=
  C27_float_rational_partial P coreText platform coreText_roundTrips
end

/-! ## Examples -/

/-- `0.1`, whose nearest double is not a tenth, prints as `0.1`; `0.1 + 0.2` prints seventeen digits; `1e23` prints one digit and zeros. -/
example : coreText.parseF .f64 "0.1".toList = some (.num false 0x3fb999999999999a) ∧
    coreText.showF .f64 (.num false 0x3fb999999999999a) = "0.1".toList ∧
    coreText.showF .f64 (.num false 0x3fd3333333333334) = "0.30000000000000004".toList ∧
    coreText.showF .f64 (.num true 0x44b52d02c7e14af6) = "-100000000000000000000000".toList ∧
    coreText.showF .f32 (.num false 0x3dcccccd) = "0.1".toList ∧
    coreText.showF .f64 (.num false 0x3fb99999a0000000) = "0.10000000149011612".toList := by
  decide +kernel

example : coreText.parseF .f64 "-1.5E+3".toList = some (.num true 0x4097700000000000) ∧ coreText.parseF .f64 "1e400".toList = some (.num false f64Fmt.infBits) ∧
    coreText.parseF .f64 "-Infinity".toList = some (.num true f64Fmt.infBits) ∧ coreText.parseF .f64 "nAn".toList = some .nan ∧
    coreText.parseF .f64 ".5".toList = some (.num false 0x3fe0000000000000) ∧ coreText.parseF .f64 "5.".toList = some (.num false 0x4014000000000000) ∧
    coreText.parseF .f64 ".".toList = none ∧ coreText.parseF .f64 "1e".toList = none ∧ coreText.parseF .f64 "".toList = none ∧
    coreText.parseF .f64 "1_000".toList = none ∧ coreText.parseF .f64 "0x10".toList = none ∧ coreText.parseF .f64 "1f64".toList = none := by
  decide +kernel

end Diman
