import Verif.Proofs.RoundTrip
/-!
# C30 — Vector quantities round-trip through serde and wrong component counts are rejected
The meaning of a text for a vector quantity is `VectorReading` (see `Spec/Text.lean`).
-/
set_option linter.unusedSectionVars false
namespace Diman

/-! ## Cutting the text -/

/-- The text is cut at the first `)` and, before it, at the first `(`. -/
def CutAt (text pre inside post : Str) : Prop :=
  text = pre ++ '(' :: (inside ++ ')' :: post) ∧ '(' ∉ pre ∧ ')' ∉ pre ∧ ')' ∉ inside

theorem takeWhile_stop {c : Char} {a b : Str} (h : c ∉ a) : (a ++ c :: b).takeWhile (· ≠ c) = a := by
  induction a with
  | nil => simp
  | cons x a ih =>
    have hx : x ≠ c := fun e => h (by simp [e])
    rw [List.cons_append, List.takeWhile_cons, if_pos (by simpa using hx), ih fun hc => h (by simp [hc])]

theorem dropWhile_stop {c : Char} {a b : Str} (h : c ∉ a) : (a ++ c :: b).dropWhile (· ≠ c) = c :: b := by
  induction a with
  | nil => simp
  | cons x a ih =>
    have hx : x ≠ c := fun e => h (by simp [e])
    rw [List.cons_append, List.dropWhile_cons, if_pos (by simpa using hx), ih fun hc => h (by simp [hc])]

theorem exists_first {c : Char} {s : Str} (h : c ∈ s) : ∃ a b, s = a ++ c :: b ∧ c ∉ a := by
  induction s with
  | nil => simp at h
  | cons x s ih =>
    by_cases hx : x = c
    · exact ⟨[], s, by simp [hx], by simp⟩
    · obtain ⟨a, b, rfl, ha⟩ := ih (by simpa [Ne.symm hx] using h)
      exact ⟨x :: a, b, rfl, by simp [ha, Ne.symm hx]⟩

theorem cut_parts {text pre inside post : Str} (h : CutAt text pre inside post) :
    text.takeWhile (· ≠ ')') = pre ++ '(' :: inside ∧ (text.dropWhile (· ≠ ')')).drop 1 = post ∧
      ((text.takeWhile (· ≠ ')')).dropWhile (· ≠ '(')).drop 1 = inside := by
  obtain ⟨rfl, h1, h2, h3⟩ := h
  have e : pre ++ '(' :: (inside ++ ')' :: post) = (pre ++ '(' :: inside) ++ ')' :: post := by simp
  have hn : ')' ∉ pre ++ '(' :: inside := by simp [h2, h3]
  have e1 : (pre ++ '(' :: (inside ++ ')' :: post)).takeWhile (· ≠ ')') = pre ++ '(' :: inside := by rw [e, takeWhile_stop hn]
  refine ⟨e1, by rw [e, dropWhile_stop hn]; rfl, ?_⟩
  rw [e1, dropWhile_stop h1]; rfl

theorem cut_of {text : Str} (h1 : ')' ∈ text) (h2 : '(' ∈ text.takeWhile (· ≠ ')')) : ∃ pre inside post, CutAt text pre inside post := by
  obtain ⟨a, b, rfl, ha⟩ := exists_first h1
  rw [takeWhile_stop ha] at h2
  obtain ⟨pre, inside, rfl, hp⟩ := exists_first h2
  refine ⟨pre, inside, b, by simp, hp, ?_, ?_⟩
  · exact fun hc => ha (by simp [hc])
  · exact fun hc => ha (by simp [hc])

theorem isWs_paren : isWs '(' = false ∧ isWs ')' = false := by decide

/-- Trimming does not change how the text is cut, except for whitespace at the ends. -/
theorem cut_trim {text pre inside post : Str} (h : CutAt text pre inside post) :
    ∃ pre' post', CutAt (trim text) pre' inside post' ∧ splitWs post' = splitWs post := by
  obtain ⟨a, b, he, ha, hb⟩ := trim_eq text
  generalize trim text = v at he ⊢
  obtain ⟨ht, h1, h2, h3⟩ := h
  -- `)` is in `v`
  have hv : ')' ∈ v := by
    have : ')' ∈ text := by rw [ht]; simp
    rw [he] at this
    simp only [List.mem_append] at this
    rcases this with h | h | h
    · exact absurd (ha _ h) (by decide)
    · exact h
    · exact absurd (hb _ h) (by decide)
  obtain ⟨x, y, rfl, hx⟩ := exists_first hv
  have hax : ')' ∉ a ++ x := by
    simp only [List.mem_append, not_or]
    exact ⟨fun hc => absurd (ha _ hc) (by decide), hx⟩
  have et : text = (a ++ x) ++ ')' :: (y ++ b) := by rw [he]; simp
  have et' : text = (pre ++ '(' :: inside) ++ ')' :: post := by rw [ht]; simp
  have hn : ')' ∉ pre ++ '(' :: inside := by simp [h2, h3]
  have e1 : a ++ x = pre ++ '(' :: inside := by
    have := takeWhile_stop (b := y ++ b) hax
    rw [← et, et', takeWhile_stop hn] at this
    exact this.symm
  have e2 : post = y ++ b := by
    have := dropWhile_stop (b := y ++ b) hax
    rw [← et, et', dropWhile_stop hn] at this
    injection this
  have hvx : '(' ∈ x := by
    have : '(' ∈ a ++ x := by rw [e1]; simp
    rcases List.mem_append.1 this with h | h
    · exact absurd (ha _ h) (by decide)
    · exact h
  obtain ⟨p, q, rfl, hp⟩ := exists_first hvx
  have hap : '(' ∉ a ++ p := by
    simp only [List.mem_append, not_or]
    exact ⟨fun hc => absurd (ha _ hc) (by decide), hp⟩
  have e3 : inside = q := by
    have := dropWhile_stop (b := q) hap
    rw [List.append_assoc, e1, dropWhile_stop h1] at this
    injection this
  refine ⟨p, y, ⟨by rw [e3]; simp, hp, fun hc => hx (by simp [hc]), h3⟩, ?_⟩
  rw [e2, splitWs_trailing hb]

theorem cut_untrim {text pre inside post : Str} (h : CutAt (trim text) pre inside post) :
    ∃ pre' post', CutAt text pre' inside post' ∧ splitWs post' = splitWs post := by
  obtain ⟨a, b, he, ha, hb⟩ := trim_eq text
  obtain ⟨ht, h1, h2, h3⟩ := h
  refine ⟨a ++ pre, post ++ b, ⟨?_, ?_, ?_, h3⟩, splitWs_trailing hb _⟩
  · rw [ht] at he; rw [he]; simp
  · simp only [List.mem_append, not_or]; exact ⟨fun hc => absurd (ha _ hc) (by decide), h1⟩
  · simp only [List.mem_append, not_or]; exact ⟨fun hc => absurd (ha _ hc) (by decide), h2⟩

theorem cut_unique {text pre inside post pre' inside' post' : Str} (h : CutAt text pre inside post) (h' : CutAt text pre' inside' post') :
    inside = inside' ∧ post = post' := by
  obtain ⟨_, h1, h2⟩ := cut_parts h
  obtain ⟨_, h3, h4⟩ := cut_parts h'
  exact ⟨h2.symm.trans h4, h1.symm.trans h3⟩

section
variable {E K M : Type} [Exponent E] [LawfulExponent E] [FieldOps E] [LawfulFieldOps E] [WrittenExponent E] [MagOps E M]
  [Prims K M] [TextPrims K M]

/-- `visit_str` on a text that is cut like this. -/
theorem visitStrVector_cut {n : Nat} {units : List (TableUnit E K)} {s : Storage} {target : DimVal E} {text pre inside post : Str}
    (h : CutAt text pre inside post) : visitStrVector M n units s target text =
      if (splitWs inside).length ≠ s.numDims then .error
      else (Outcome.orError ((splitWs inside).mapM (TextPrims.parseF M s.base))).bind fun array =>
        (readUnits M units (DimVal.none n) (Prims.one M .f64) (splitWs post)).bind fun df =>
        ifDimensionsMatch target (array.map (Prims.mul M s.base (TextPrims.ofF64 M s.base df.2))) df.1 := by
  obtain ⟨pre', post', h', e⟩ := cut_trim h
  obtain ⟨h1, h2, h3⟩ := cut_parts h'
  unfold visitStrVector
  simp only [h3, h2]
  rw [if_neg, if_neg, e]
  · rw [h1]; simp
  · rw [h'.1]; simp

theorem visitStrVector_uncut {n : Nat} {units : List (TableUnit E K)} {s : Storage} {target : DimVal E} {text : Str}
    (h : ¬ ∃ pre inside post, CutAt text pre inside post) : (visitStrVector M n units s target text : Outcome (Raw K)) = .error := by
  unfold visitStrVector
  simp only
  split
  · rfl
  · rename_i h1
    split
    · rfl
    · rename_i h2
      exfalso
      apply h
      obtain ⟨pre, inside, post, hc⟩ := cut_of (text := trim text) (by simpa using h1) (by simpa using h2)
      obtain ⟨pre', post', hc', _⟩ := cut_untrim hc
      exact ⟨_, _, _, hc'⟩

/-- **C30, what is accepted.** In an accepted unit system, deserialising a string as a vector quantity of dimension `target` either succeeds
or reports an error (or panics by integer overflow), and it succeeds with `r` if and only if the string is a parenthesised list of as many
numbers as the vector has components, followed by units whose combined dimension is `target`; `r` has these numbers times the factor of the
units. -/
theorem C30_vector_iff (factor : Prefix → M) (t : UnresolvedTemplates E M) (defs : Defs E M)
    (accepted : runUnitSystem factor t = some (defs, []))
    (literals : (UnresolvedTemplates.expand (MagOps.one E) factor t).LitExponents (WrittenExponent.Ok : E → Prop))
    (s : Storage) (vector : s.isFloat = false) (target : DimVal E) (canonical : target.Canonical) (text : Str) (o : Outcome (Raw K))
    (compiled : deserializeStr M defs s target text = some o) (noPanic : o ≠ .panic) (r : Raw K) :
    o = .ok r ↔ VectorReading M defs s text target r := by
  obtain ⟨res, h⟩ := accepted_of_run accepted
  unfold deserializeStr at compiled
  rw [bindM_eq_some] at compiled
  obtain ⟨tbl, ht, compiled⟩ := compiled
  simp only [vector, Bool.false_eq_true, if_false, pure_eq_some] at compiled
  by_cases hcut : ∃ pre inside post, CutAt text pre inside post
  · obtain ⟨pre, inside, post, hcut⟩ := hcut
    rw [visitStrVector_cut hcut] at compiled
    subst compiled
    constructor
    · intro ho
      split at ho
      · cases ho
      · rename_i hl
        simp only [Outcome.bind_ok, Outcome.orError_ok] at ho
        obtain ⟨xs, hx, ⟨d, f⟩, hr, hm⟩ := ho
        obtain ⟨vs, g1, g2, g3, rfl⟩ := (readUnits_spec h literals ht (splitWs post)).1 d f hr
        unfold ifDimensionsMatch at hm
        split at hm
        · rename_i hd
          simp only at hd
          subst hd
          refine ⟨pre, inside, post, hcut.1, hcut.2.1, hcut.2.2.1, hcut.2.2.2, _, words_splitWs inside, not_not.1 hl, xs,
            mapM_option_some hx, _, words_splitWs post, vs, g1, g2, ?_⟩
          injection hm with hm; exact hm.symm
        · cases hm
    · rintro ⟨pre', inside', post', c1, c2, c3, c4, nums, hnums, hlen, xs, hxs, ws, hws, us, g1, g2, rfl⟩
      obtain ⟨rfl, rfl⟩ := cut_unique hcut ⟨c1, c2, c3, c4⟩
      rw [splitWs_iff.2 hnums, splitWs_iff.2 hws, if_neg (by simpa using hlen)] at noPanic ⊢
      have hm : nums.mapM (TextPrims.parseF M s.base) = some xs := by
        clear noPanic hnums hlen
        induction hxs with
        | nil => rfl
        | cons hx _ ih => rw [List.mapM_cons, hx, ih]; rfl
      rw [hm] at noPanic ⊢
      simp only [Outcome.orError, Outcome.bind] at noPanic ⊢
      rcases (readUnits_spec h literals ht ws).2 us g1 with hp | ⟨d, hd, hc, he⟩
      · rw [hp] at noPanic; exact absurd rfl noPanic
      · rw [hd]
        have : d = target := DimVal.ext hc canonical (he.trans g2.symm)
        simp only [ifDimensionsMatch, this, if_true]
  · rw [visitStrVector_uncut hcut] at compiled
    subst compiled
    constructor
    · intro ho; cases ho
    · rintro ⟨pre', inside', post', c1, c2, c3, c4, _⟩
      exact absurd ⟨_, _, _, c1, c2, c3, c4⟩ hcut

/-- **C30, wrong number of components.** A bracketed list whose number of components differs from the vector's dimension is rejected with an
error, whatever else the string contains. -/
theorem C30_wrong_count (defs : Defs E M) (s : Storage) (vector : s.isFloat = false) (target : DimVal E) (text : Str) (o : Outcome (Raw K))
    (compiled : deserializeStr M defs s target text = some o)
    (pre inside post : Str) (cut : text = pre ++ '(' :: (inside ++ ')' :: post)) (h1 : '(' ∉ pre) (h2 : ')' ∉ pre) (h3 : ')' ∉ inside)
    (components : List Str) (hw : Words inside components) (wrong : components.length ≠ s.numDims) : o = .error := by
  unfold deserializeStr at compiled
  rw [bindM_eq_some] at compiled
  obtain ⟨tbl, ht, compiled⟩ := compiled
  simp only [vector, Bool.false_eq_true, if_false, pure_eq_some] at compiled
  rw [visitStrVector_cut ⟨cut, h1, h2, h3⟩, splitWs_iff.2 hw, if_pos (by simpa using wrong)] at compiled
  exact compiled.symm

/-- **C30, dimension.** A successful result has as many components as the vector type, and the units named in the string have exactly the
requested dimension. -/
theorem C30_dimension (factor : Prefix → M) (t : UnresolvedTemplates E M) (defs : Defs E M)
    (accepted : runUnitSystem factor t = some (defs, []))
    (literals : (UnresolvedTemplates.expand (MagOps.one E) factor t).LitExponents (WrittenExponent.Ok : E → Prop))
    (s : Storage) (vector : s.isFloat = false) (target : DimVal E) (canonical : target.Canonical) (text : Str) (r : Raw K)
    (run : deserializeStr M defs s target text = some (.ok r)) :
    r.length = s.numDims ∧ ∃ post ws us, (')' :: post) <:+ text ∧ Words post ws ∧ NamesUnits defs ws us ∧
      target.vec = defs.baseDimensions.map fun k => (us.map fun ue => (ue.2 : ℚ) * ue.1.dims.expo k).sum := by
  obtain ⟨pre, inside, post, c1, _, _, _, nums, _, hlen, xs, hxs, ws, hws, us, g1, g2, rfl⟩ :=
    (C30_vector_iff factor t defs accepted literals s vector target canonical text _ run (by simp) r).1 rfl
  refine ⟨by rw [List.length_map, ← hxs.length_eq, hlen], post, ws, us, ⟨pre ++ '(' :: inside, by rw [c1]; simp⟩, hws, g1, g2⟩
end

section
variable {E K M : Type} [Exponent E] [LawfulExponent E] [FieldOps E] [LawfulFieldOps E] [TotalFields E] [WrittenExponent E] [MagOps E M]
  [Prims K M] [TextPrims K M]

/-- **C30, no panic.** As for float quantities (`C28_no_panic`): reading a string that is not too long never panics, whatever it is. -/
theorem C30_no_panic (factor : Prefix → M) (t : UnresolvedTemplates E M) (defs : Defs E M)
    (accepted : runUnitSystem factor t = some (defs, []))
    (literals : (UnresolvedTemplates.expand (MagOps.one E) factor t).LitExponents (WrittenExponent.Ok : E → Prop))
    (s : Storage) (vector : s.isFloat = false) (target : DimVal E) (text : Str) (o : Outcome (Raw K))
    (compiled : deserializeStr M defs s target text = some o)
    (B : Nat) (bound : ∀ U ∈ defs.units, ∀ k, |U.dims.expo k| ≤ B)
    (L : Nat) (positive : 0 < L) (small : L < 2 ^ 31) (denominator : ∀ U ∈ defs.units, ∀ k, ∃ z : Int, U.dims.expo k * L = z)
    (short : text.length * B * L ^ 2 < 2 ^ 32) : o ≠ .panic := by
  obtain ⟨res, h⟩ := accepted_of_run accepted
  have hL2 : L ^ 2 < 2 ^ 63 := lt_of_lt_of_le (Nat.pow_lt_pow_left small two_ne_zero) (by norm_num)
  unfold deserializeStr at compiled
  rw [bindM_eq_some] at compiled
  obtain ⟨tbl, ht, compiled⟩ := compiled
  simp only [vector, Bool.false_eq_true, if_false, pure_eq_some] at compiled
  by_cases hcut : ∃ pre inside post, CutAt text pre inside post
  · obtain ⟨pre, inside, post, hcut⟩ := hcut
    rw [visitStrVector_cut hcut] at compiled
    subst compiled
    have hlen : (splitWs post).length ≤ text.length := by
      have : ∀ {s : Str} {ws : List Str}, Words s ws → ws.length ≤ s.length := by
        intro s ws hw
        induction hw with
        | blank _ => simp
        | @word gap w rest ws _ hne _ _ _ ih =>
          have := List.length_pos_iff.2 hne
          simp only [List.length_cons, List.length_append]; omega
      have h1 := this (words_splitWs post)
      rw [hcut.1]
      simp only [List.length_append, List.length_cons]; omega
    have hn := readUnits_no_panic h literals ht positive hL2 bound denominator (ws := splitWs post)
      (lt_of_le_of_lt (by gcongr) short)
    split
    · simp
    · cases (splitWs inside).mapM (TextPrims.parseF M s.base : Str → Option K) with
      | none => simp [Outcome.orError, Outcome.bind]
      | some xs =>
        simp only [Outcome.orError, Outcome.bind]
        cases hr : readUnits M tbl (DimVal.none defs.baseDimensions.length) (Prims.one M .f64 : K) (splitWs post) with
        | panic => exact absurd hr hn
        | error => simp
        | ok r => simp only [ifDimensionsMatch]; split <;> simp
  · rw [visitStrVector_uncut hcut] at compiled
    subst compiled
    simp
end

/-! ## Round trip -/

theorem replaceChar_append (c : Char) (r a b : Str) : replaceChar c r (a ++ b) = replaceChar c r a ++ replaceChar c r b := by
  simp [replaceChar]

theorem replaceChar_of_not_mem {c : Char} {r a : Str} (h : c ∉ a) : replaceChar c r a = a := by
  unfold replaceChar
  induction a with
  | nil => rfl
  | cons x a ih =>
    rw [List.flatMap_cons, if_neg (fun e => h (by simp [e])), ih fun hc => h (by simp [hc])]; rfl

section
variable {E K M : Type} [Exponent E] [LawfulExponent E] [FieldOps E] [LawfulFieldOps E] [TotalFields E] [WrittenExponent E]
  [ShowExponent E] [LawfulShow E] [MagOps E M] [Prims K M] [TextPrims K M] [LawfulText E K M]

theorem words_spaced {nums : List Str} (h : ∀ w ∈ nums, w ≠ [] ∧ ∀ c ∈ w, isWs c = false) : Words (nums.intersperse [' ']).flatten nums := by
  induction nums with
  | nil => exact .blank (by simp)
  | cons w ws ih =>
    have hw := h w (by simp)
    cases ws with
    | nil =>
      have := Words.word (gap := []) (rest := []) (by simp) hw.1 hw.2 (by simp) (.blank (by simp))
      simpa using this
    | cons w' ws =>
      have i := ih fun v hv => h v (by simp [hv])
      have : Words (' ' :: ((w' :: ws).intersperse [' ']).flatten) (w' :: ws) :=
        splitWs_iff.1 ((splitWs_space (by decide) _).trans (splitWs_iff.2 i))
      have := Words.word (gap := []) (by simp) hw.1 hw.2 (by simp [isWs]) this
      simpa using this

theorem replace_commas {nums : List Str} (h : ∀ w ∈ nums, ',' ∉ w) :
    replaceChar ',' [] (nums.intersperse [',', ' ']).flatten = (nums.intersperse [' ']).flatten := by
  induction nums with
  | nil => rfl
  | cons w ws ih =>
    cases ws with
    | nil => simpa using replaceChar_of_not_mem (h w (by simp))
    | cons w' ws =>
      have i := ih fun v hv => h v (by simp [hv])
      simp only [List.intersperse_cons_cons, List.flatten_cons, replaceChar_append] at i ⊢
      rw [i, replaceChar_of_not_mem (h w (by simp))]
      rfl

/-- **C30, round trip.** In an accepted unit system in which every base dimension has a base unit, a vector quantity of any dimension with
integer exponents (in the range of `i32`) serialises to a string from which the same vector quantity is read back. (Missing for the full
claim: fractional or larger exponents, as in `C27_round_trip_partial`.) -/
theorem C30_round_trip_partial (factor : Prefix → M) (t : UnresolvedTemplates E M) (defs : Defs E M)
    (accepted : runUnitSystem factor t = some (defs, []))
    (literals : (UnresolvedTemplates.expand (MagOps.one E) factor t).LitExponents (WrittenExponent.Ok : E → Prop))
    (distinct : defs.baseDimensions.Nodup)
    (hasBase : ∀ d ∈ t.dimensions, d.rhs = .base () → ∃ v ∈ t.units, v.definition = .base d.name)
    (symbols : t.PlainSymbols)
    (finite : ∀ U ∈ defs.units, TextPrims.finite M (Prims.into .f64 U.mag : K) = true)
    (d : DimVal E) (fields : d.length = defs.baseDimensions.length)
    (integer : ∀ e ∈ d, ∃ i : Int, InI32 i ∧ e = Exponent.ofInt i)
    (s : Storage) (vector : s.isFloat = false) (xs : Raw K) (components : xs.length = s.numDims)
    (valid : ∀ x ∈ xs, LawfulText.Valid E M s.base x) :
    ∃ text, serializeStr M defs s d xs = some text ∧ deserializeStr M defs s d text = some (.ok xs) := by
  obtain ⟨terms, h1, h2, us, h3, h4, h5, h6⟩ := printed_units (K := K) factor t defs accepted literals distinct hasBase symbols d fields
    integer (showRaw M s xs)
  let nums := xs.map (TextPrims.showF M s.base)
  have hplain : ∀ w ∈ nums, PlainText w := by
    intro w hw
    obtain ⟨x, hx, rfl⟩ := List.mem_map.1 hw
    exact LawfulText.show_plain (E := E) (valid x hx)
  have hno : ∀ c ∈ ['(', ')', '[', ']', ','], ∀ w ∈ nums, c ∉ w := fun c hc w hw hm =>
    ((hplain w hw).2 c hm).2 (List.mem_cons_of_mem _ hc)
  have hunits : ∀ c ∈ ['(', ')', '[', ']', ','], c ∉ (terms.map UnitTerm.text).flatten := by
    intro c hc hm
    obtain ⟨l, hl, hcl⟩ := List.mem_flatten.1 hm
    obtain ⟨u, hu, rfl⟩ := List.mem_map.1 hl
    rw [UnitTerm.text_eq] at hcl
    rcases List.mem_cons.1 hcl with rfl | hcl
    · revert hc; decide
    · exact ((h2 u hu).2 c hcl).2 hc
  have hsep : ∀ c, c ≠ ',' → c ≠ ' ' → (∀ w ∈ nums, c ∉ w) → c ∉ (nums.intersperse [',', ' ']).flatten := by
    intro c h1 h2 h3 hm
    obtain ⟨l, hl, hcl⟩ := List.mem_flatten.1 hm
    have : l ∈ nums ∨ l = [',', ' '] := by
      clear h3 hplain hno hm
      revert hl
      generalize nums = ns
      intro hl
      induction ns with
      | nil => simp at hl
      | cons w ws ih =>
        cases ws with
        | nil => simp at hl; exact .inl (by simp [hl])
        | cons w' ws =>
          simp only [List.intersperse_cons_cons, List.mem_cons] at hl ih ⊢
          rcases hl with rfl | rfl | hl
          · exact .inl (.inl rfl)
          · exact .inr rfl
          · rcases ih hl with h | h
            · exact .inl (.inr h)
            · exact .inr h
    rcases this with h | rfl
    · exact h3 l h hcl
    · simp [h1, h2] at hcl
  have hsep' : ∀ c ∈ ['(', ')', '[', ']'], c ∉ (nums.intersperse [',', ' ']).flatten := by
    intro c hc
    refine hsep c ?_ ?_ (hno c (by fin_cases hc <;> decide)) <;> (fin_cases hc <;> decide)
  have htext : serializeStr M defs s d xs = some ('(' :: ((nums.intersperse [' ']).flatten ++ ')' :: (terms.map UnitTerm.text).flatten)) := by
    rw [serializeStr, if_neg (by simp [vector]), h1, Option.map_some]
    have e : showRaw M s xs ++ (terms.map UnitTerm.text).flatten =
        ['['] ++ ((nums.intersperse [',', ' ']).flatten ++ ([']'] ++ (terms.map UnitTerm.text).flatten)) := by
      simp [showRaw, vector, nums]
    rw [e]
    simp only [replaceChar_append]
    rw [replaceChar_of_not_mem (hsep' '[' (by decide)), replaceChar_of_not_mem (hsep' ']' (by decide)),
      replace_commas (hno ',' (by decide)), replaceChar_of_not_mem (hunits '[' (by decide)),
      replaceChar_of_not_mem (hunits ']' (by decide)), replaceChar_of_not_mem (hunits ',' (by decide))]
    rfl
  refine ⟨_, htext, ?_⟩
  obtain ⟨o, ho⟩ := C28_compiles (K := K) factor t defs accepted literals distinct finite s d
    ('(' :: ((nums.intersperse [' ']).flatten ++ ')' :: (terms.map UnitTerm.text).flatten))
  rw [ho]
  unfold deserializeStr at ho
  rw [bindM_eq_some] at ho
  obtain ⟨tbl, ht, ho⟩ := ho
  simp only [vector, Bool.false_eq_true, if_false, pure_eq_some] at ho
  have hwords := words_spaced (nums := nums) fun w hw => ⟨(hplain w hw).1, fun c hc => ((hplain w hw).2 c hc).1⟩
  have hparen : ')' ∉ (nums.intersperse [' ']).flatten := by
    rw [← replace_commas (hno ',' (by decide))]
    intro hm
    unfold replaceChar at hm
    obtain ⟨c, hc, hm⟩ := List.mem_flatMap.1 hm
    split at hm
    · simp at hm
    · rw [List.mem_singleton] at hm
      subst hm
      exact hsep' ')' (by decide) hc
  rw [← ho, visitStrVector_cut (text := '(' :: _) (pre := []) (inside := (nums.intersperse [' ']).flatten) (post := (terms.map UnitTerm.text).flatten)
    ⟨rfl, by simp, by simp, hparen⟩, splitWs_iff.2 hwords,
    splitWs_iff.2 (words_terms terms fun u hu => ⟨(h2 u hu).1, fun c hc => ((h2 u hu).2 c hc).1⟩).1,
    if_neg (by simp [nums, components])]
  have hm : nums.mapM (TextPrims.parseF M s.base) = some xs := by
    have : ∀ l : List K, (∀ x ∈ l, LawfulText.Valid E M s.base x) →
        (l.map (TextPrims.showF M s.base)).mapM (TextPrims.parseF M s.base) = some l := by
      intro l
      induction l with
      | nil => intro _; rfl
      | cons x l ih =>
        intro hl
        rw [List.map_cons, List.mapM_cons, LawfulText.parse_show (hl x (by simp)), ih fun y hy => hl y (by simp [hy])]; rfl
    exact this xs valid
  rw [hm]
  simp only [Outcome.orError, Outcome.bind, h6 tbl ht, ifDimensionsMatch, if_true, LawfulText.ofF64_one (E := E)]
  have : xs.map (Prims.mul M s.base (Prims.one M s.base)) = xs := by
    conv_rhs => rw [← List.map_id xs]
    exact List.map_congr_left fun x hx => LawfulText.one_mul (valid x hx)
  rw [this]
end

/-! ## Concrete runs -/
section
open Sample
attribute [local instance] Sample.exactMag Sample.ratPrims Sample.ratText Sample.ratLawful
example : ∃ defs, runUnitSystem exactFactor sample = some (defs, []) ∧
    (decide (serializeStr ℚ defs .dvec3 [1, -2, 0, 0] [(3 / 4 : ℚ), 1, -2] = some (str!"(3/4 1/1 -2/1) m s^-2")) &&
      decide (deserializeStr ℚ defs .dvec3 [1, -2, 0, 0] (str!"(3/4 1/1 -2/1) m s^-2") = some (.ok [(3 / 4 : ℚ), 1, -2])) &&
      decide (deserializeStr ℚ defs .dvec3 [1, 0, 0, 0] (str!"(1 2) m") = some (.error : Outcome (Raw ℚ))) &&
      -- text before the opening parenthesis is ignored
      decide (deserializeStr ℚ defs .dvec2 [1, 0, 0, 0] (str!"anything (1 2) km") = some (.ok [(1000 : ℚ), 2000]))) = true :=
  run_debug _ _ (by decide +kernel)
end
end Diman
