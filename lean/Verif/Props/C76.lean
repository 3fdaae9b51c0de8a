import Verif.Proofs.Torn
import Verif.Props.C59
import Verif.Props.C64
/-!
# C76 — a text cut short is refused
-/
set_option linter.unusedSectionVars false
namespace Diman
open LawfulExponent
section
variable {E K M : Type} [Exponent E] [LawfulExponent E] [FieldOps E] [LawfulFieldOps E] [TotalFields E] [WrittenExponent E]
  [ShowExponent E] [LawfulShow E] [MagOps E M] [Prims K M] [TextPrims K M] [LawfulText E K M]

/-- The serialised text of a vector: its numbers in parentheses, then what Debug prints after the value. -/
theorem vector_text {defs : Defs E M} {d : DimVal E} {s : Storage} (vector : s.isFloat = false) {xs : Raw K}
    (valid : ∀ x ∈ xs, LawfulText.Valid E M s.base x) {terms : List (UnitTerm E M)}
    (h1 : debugFmt K defs d (showRaw M s xs) = some (showRaw M s xs ++ (terms.map UnitTerm.text).flatten))
    (h2 : ∀ u ∈ terms, u.word ≠ [] ∧ ∀ c ∈ u.word, isWs c = false ∧ c ∉ ['(', ')', '[', ']', ',']) :
    ∃ inside, ')' ∉ inside ∧ serializeStr M defs s d xs = some ('(' :: (inside ++ ')' :: (terms.map UnitTerm.text).flatten)) := by
  let nums := xs.map (TextPrims.showF M s.base)
  have hplain : ∀ w ∈ nums, PlainText w := by
    intro w hw
    obtain ⟨x, hx, rfl⟩ := List.mem_map.1 hw
    exact LawfulText.show_plain (E := E) (valid x hx)
  have hno : ∀ c ∈ ['(', ')', '[', ']', ','], ∀ w ∈ nums, c ∉ w := fun c hc w hw hm =>
    ((hplain w hw).2 c hm).2 (List.mem_cons_of_mem _ hc)
  have hunits : ∀ c ∈ ['(', ')', '[', ']', ','], c ∉ (terms.map UnitTerm.text).flatten := by
    intro c hc hm
    obtain ⟨l, hl, hcl⟩ := List.mem_flatten.1 hm
    obtain ⟨u, hu, rfl⟩ := List.mem_map.1 hl
    rw [UnitTerm.text_eq] at hcl
    rcases List.mem_cons.1 hcl with rfl | hcl
    · revert hc; decide
    · exact ((h2 u hu).2 c hcl).2 hc
  have hsep : ∀ (sep : Str) c, c ∉ sep → (∀ w ∈ nums, c ∉ w) → c ∉ (nums.intersperse sep).flatten := by
    intro sep c h1 h3 hm
    obtain ⟨l, hl, hcl⟩ := List.mem_flatten.1 hm
    have : l ∈ nums ∨ l = sep := by
      clear h3 hplain hno hm
      revert hl
      generalize nums = ns
      intro hl
      induction ns with
      | nil => simp at hl
      | cons w ws ih =>
        cases ws with
        | nil => simp at hl; exact .inl (by simp [hl])
        | cons w' ws =>
          simp only [List.intersperse_cons_cons, List.mem_cons] at hl ih ⊢
          rcases hl with rfl | rfl | hl
          · exact .inl (.inl rfl)
          · exact .inr rfl
          · rcases ih hl with h | h
            · exact .inl (.inr h)
            · exact .inr h
    rcases this with h | rfl
    · exact h3 l h hcl
    · exact h1 hcl
  have hsep' : ∀ c ∈ ['(', ')', '[', ']'], c ∉ (nums.intersperse [',', ' ']).flatten := by
    intro c hc
    refine hsep _ c ?_ (hno c (by fin_cases hc <;> decide))
    fin_cases hc <;> decide
  refine ⟨(nums.intersperse [' ']).flatten, hsep _ _ (by decide) (hno _ (by decide)), ?_⟩
  rw [serializeStr, if_neg (by simp [vector]), h1, Option.map_some]
  have e : showRaw M s xs ++ (terms.map UnitTerm.text).flatten =
      ['['] ++ ((nums.intersperse [',', ' ']).flatten ++ ([']'] ++ (terms.map UnitTerm.text).flatten)) := by
    simp [showRaw, vector, nums]
  rw [e]
  simp only [replaceChar_append]
  rw [replaceChar_of_not_mem (hsep' '[' (by decide)), replaceChar_of_not_mem (hsep' ']' (by decide)),
    replace_commas (hno ',' (by decide)), replaceChar_of_not_mem (hunits '[' (by decide)),
    replaceChar_of_not_mem (hunits ']' (by decide)), replaceChar_of_not_mem (hunits ',' (by decide))]
  rfl

/-- **C76.** A serialised quantity that has a dimension and lost its end (any number of characters) is not read as a quantity of its type, neither by the version
of the unit system that wrote it nor by a later one, provided the unit symbols of the reader are tear-safe. -/
theorem C76_cut_refused (factor : Prefix → M) (t t' : UnresolvedTemplates E M) (ext : Extends t t') (defs defs' : Defs E M)
    (accepted : runUnitSystem factor t = some (defs, [])) (accepted' : runUnitSystem factor t' = some (defs', []))
    (literals : (UnresolvedTemplates.expand (MagOps.one E) factor t).LitExponents (WrittenExponent.Ok : E → Prop))
    (literals' : (UnresolvedTemplates.expand (MagOps.one E) factor t').LitExponents (WrittenExponent.Ok : E → Prop))
    (distinct' : defs'.baseDimensions.Nodup) (symbols : t.PlainSymbols) (safe : TearSafe defs')
    (d d' : DimVal E) (fields : d.length = defs.baseDimensions.length) (integer : ∀ e ∈ d, ∃ i : Int, InI32 i ∧ e = Exponent.ofInt i)
    (nonzero : ∃ e ∈ d, val e ≠ 0)
    (fields' : d'.length = defs'.baseDimensions.length) (canonical' : d'.Canonical)
    (same : SameDimension defs.baseDimensions d defs'.baseDimensions d')
    (s : Storage) (xs : Raw K) (components : xs.length = s.numDims) (valid : ∀ x ∈ xs, LawfulText.Valid E M s.base x)
    (text : Str) (written : serializeStr M defs s d xs = some text) (cut : Str) (initial : cut <+: text) (short : cut ≠ text) (r : Raw K) :
    deserializeStr M defs' s d' cut ≠ some (.ok r) := by
  intro hread
  obtain ⟨res', h'⟩ := accepted_of_run accepted'
  have ex := C52_extension factor t t' ext defs defs' accepted accepted'
  have distinct : defs.baseDimensions.Nodup := List.Subperm.nodup' ex.2.2.2.2.2 distinct'
  have unique : ∀ U ∈ defs'.units, ∀ V ∈ defs'.units, ∀ s, U.symbol = some s → V.symbol = some s → U = V :=
    fun U hU V hV s h1 h2 => symbol_unique h' hU hV h1 h2
  have hdim : ∀ {us : UnitPowers E M}, HasDimension defs' us d' → ∀ k ∈ defs'.baseDimensions, us.expo k = exponentAt defs.baseDimensions d k := by
    intro us hus k hk
    unfold HasDimension at hus
    rw [vec_exponentAt distinct' fields'] at hus
    rw [same k]
    exact (List.map_inj_left.1 hus k hk).symm
  obtain ⟨shown, hshown⟩ : ∃ out, debugFmt K defs d (showRaw M s xs) = some out := by
    unfold serializeStr at written
    split at written
    · exact ⟨_, written⟩
    · rw [Option.map_eq_some_iff] at written
      obtain ⟨out, h, -⟩ := written
      exact ⟨out, h⟩
  obtain ⟨terms, rfl, hT, hsum⟩ := printed_tearproof (K := K) accepted literals distinct symbols ex.2.1 (fun b hb => ex.2.2.2.2.2.subset hb) safe fields
    integer nonzero hshown
  -- a piece of the printed units
  have piece : ∀ {p : Str} {ws : List Str} {us : UnitPowers E M}, p <+: (terms.map UnitTerm.text).flatten → p ≠ (terms.map UnitTerm.text).flatten →
      Words p ws → NamesUnits defs' ws us → HasDimension defs' us d' → False := by
    intro p ws us h1 h2 h3 h4 h5
    obtain ⟨k, hk, hk'⟩ := torn_core unique hT h1 h2 h3 h4
    exact hk' (by rw [hsum, hdim h5 k hk])
  -- no units at all
  have nothing : ¬ HasDimension defs' ([] : UnitPowers E M) d' := by
    intro h5
    obtain ⟨e, he, hne⟩ := nonzero
    have : val e ∈ d.vec := List.mem_map_of_mem he
    rw [vec_exponentAt distinct fields] at this
    obtain ⟨k, hk, hk'⟩ := List.mem_map.1 this
    have := hdim h5 k (ex.2.2.2.2.2.subset hk)
    rw [hk'] at this
    exact hne (by simpa [UnitPowers.expo] using this.symm)
  cases hs : s.isFloat with
  | true =>
    obtain ⟨x, rfl⟩ : ∃ x, xs = [x] := by
      have : xs.length = 1 := by rw [components]; cases s <;> simp_all [Storage.isFloat, Storage.numDims]
      exact List.length_eq_one_iff.1 this
    have hnum : showRaw M s [x] = TextPrims.showF M s.base x := by simp [showRaw, hs]
    rw [serializeStr, if_pos hs, hshown, Option.some.injEq, hnum] at written
    subst written
    have hpl : PlainText (TextPrims.showF M s.base x) := LawfulText.show_plain (E := E) (valid x (by simp))
    obtain ⟨num, ws, hw, y, -, us, hn, hd, -⟩ := (C28_float_iff factor t' defs' accepted' literals' s hs d' canonical' cut _ hread (by simp) r).1 rfl
    obtain ⟨z, hz⟩ := initial
    rcases List.append_eq_append_iff.1 hz with ⟨a, ha, hb⟩ | ⟨a, ha, hb⟩
    · -- the number was cut: one word at most
      have hcw : ∀ c ∈ cut, isWs c = false := fun c hc => (hpl.2 c (by rw [ha]; simp [hc])).1
      have hsp := splitWs_iff.2 hw
      by_cases h0 : cut = []
      · subst h0; cases hsp
      · have := splitWs_word (rest := []) h0 hcw (by simp)
        rw [List.append_nil, hsp] at this
        injection this with _ this
        have e0 : splitWs [] = [] := rfl
        rw [e0] at this
        subst this
        cases hn
        exact nothing hd
    · subst ha
      have hpre : a <+: (terms.map UnitTerm.text).flatten := ⟨z, hb.symm⟩
      have hhead : ∀ c ∈ a.head?, isWs c = true := by
        intro c hc
        cases a with
        | nil => simp at hc
        | cons x a =>
          simp at hc
          subst hc
          cases terms with
          | nil => simp at hpre
          | cons v rest =>
            rw [List.map_cons, List.flatten_cons, UnitTerm.text_eq, List.cons_append] at hpre
            rw [(List.cons_prefix_cons.1 hpre).1]
            decide
      have hsp := splitWs_word hpl.1 (fun c hc => (hpl.2 c hc).1) hhead
      rw [splitWs_iff.2 hw] at hsp
      injection hsp with _ hsp
      subst hsp
      exact piece hpre (fun h => short (by rw [h])) (words_splitWs a) hn hd
  | false =>
    obtain ⟨inside, hin, htext⟩ := vector_text hs valid hshown hT.chars
    rw [htext, Option.some.injEq] at written
    subst written
    obtain ⟨pre, ins, post, hcut, p1, p2, p3, nums, -, -, ys, -, ws, hw, us, hn, hd, -⟩ :=
      (C30_vector_iff factor t' defs' accepted' literals' s hs d' canonical' cut _ hread (by simp) r).1 rfl
    obtain ⟨z, hz⟩ := initial
    have e1 : cut = (pre ++ '(' :: ins) ++ ')' :: post := by rw [hcut]; simp
    have hA : ')' ∉ pre ++ '(' :: ins := by simp [p2, p3]
    have hB : ')' ∉ '(' :: inside := by simp [hin]
    have hz2 : (pre ++ '(' :: ins) ++ ')' :: (post ++ z) = ('(' :: inside) ++ ')' :: (terms.map UnitTerm.text).flatten := by
      rw [e1] at hz; simpa using hz
    obtain ⟨q1, q2⟩ : pre ++ '(' :: ins = '(' :: inside ∧ post ++ z = (terms.map UnitTerm.text).flatten := by
      have := takeWhile_stop (b := post ++ z) hA
      rw [hz2, takeWhile_stop hB] at this
      rw [← this] at hz2
      exact ⟨this.symm, by simpa using hz2⟩
    exact piece ⟨z, q2⟩ (fun h => short (by rw [e1, q1, h]; simp)) hw hn hd
end

/-! ### The SI -/

/-- `TearSafe` for the table of SI units, with all prefixes. -/
def siTearCheck : Bool := (siSymbols.filter fun u => u.2.1 = 1).all fun u => siSymbols.all fun v =>
  !(!v.1.isEmpty && v.1.isPrefixOf u.1 && v.1 != u.1) ||
  (siBaseFields.any (fun k => v.2.2.of k != u.2.2.of k) &&
    siBaseFields.all fun b => !(siBaseFields.all fun k => u.2.2.of k == if k = b then 1 else 0) || v.2.2.of b == 0)

set_option maxRecDepth 1000000 in
theorem siTearCheck_true : siTearCheck = true := by decide +kernel

theorem Extends.refl {E M : Type} (t : UnresolvedTemplates E M) : Extends t t := ⟨rfl, rfl, List.Subperm.refl _, List.Subperm.refl _, List.Subperm.refl _⟩

theorem sameDimension_refl {E : Type} [Exponent E] [LawfulExponent E] (bd : List Str) (d : DimVal E) : SameDimension bd d bd d := fun _ => rfl

/-- The symbols of the SI are tear-safe, if the only units with conversion factor one are the coherent ones. -/
theorem si_tear_safe {E M : Type} [Exponent E] [LawfulExponent E] [FieldOps E] [LawfulFieldOps E] [ReadExponent E] [MagOps E M] {mag : Number → M}
    {factor : Prefix → M} {Value : Int → ℚ → M → Prop} {t : UnresolvedTemplates E M} {defs : Defs E M} (F : SiFacts mag factor Value t defs)
    (coherent : ∀ U ∈ defs.units, MagOps.isOne E U.mag = true → ∀ r ∈ siUnits, ∀ pre : Option Prefix, Value (siPrefix? pre).power r.value U.mag →
      (10 : ℚ) ^ (siPrefix? pre).power * r.value = 1) : TearSafe defs := by
  intro U hU V hV hone su sv hsu hsv h0 hp hne
  obtain ⟨r, hr, pre, e1, hvalue, e3⟩ := F.units U hU
  obtain ⟨r', hr', pre', e1', -, e3'⟩ := F.units V hV
  have hu : (su, (10 : ℚ) ^ (siPrefix? pre).power * r.value, r.dim) ∈ siSymbols := by
    rcases e3 with e3 | e3
    · rw [hsu] at e3; cases e3
    · rw [hsu] at e3
      obtain ⟨sym, hsym, e⟩ := Option.map_eq_some_iff.1 e3.symm
      exact List.mem_flatMap.2 ⟨pre, mem_allPrefixes _, List.mem_filterMap.2 ⟨r, hr, by rw [hsym, ← e]; rfl⟩⟩
  have hv : (sv, (10 : ℚ) ^ (siPrefix? pre').power * r'.value, r'.dim) ∈ siSymbols := by
    rcases e3' with e3 | e3
    · rw [hsv] at e3; cases e3
    · rw [hsv] at e3
      obtain ⟨sym, hsym, e⟩ := Option.map_eq_some_iff.1 e3.symm
      exact List.mem_flatMap.2 ⟨pre', mem_allPrefixes _, List.mem_filterMap.2 ⟨r', hr', by rw [hsym, ← e]; rfl⟩⟩
  have hval := coherent U hU hone r hr pre hvalue
  have check := siTearCheck_true
  unfold siTearCheck at check
  rw [List.all_eq_true] at check
  have check := check _ (List.mem_filter.2 ⟨hu, by simpa using hval⟩)
  rw [List.all_eq_true] at check
  have check := check _ hv
  have hne1 : sv.isEmpty = false := by simpa using h0
  have hpre1 : sv.isPrefixOf su = true := by simpa using hp
  have hneq : (sv != su) = true := by simpa using hne
  simp only [hne1, hpre1, hneq, Bool.not_false, Bool.and_self, Bool.not_true, Bool.false_or, Bool.and_eq_true, List.any_eq_true, List.all_eq_true,
    Bool.or_eq_true, bne_iff_ne, ne_eq, beq_iff_eq, Bool.not_eq_true'] at check
  rw [F.base]
  obtain ⟨⟨k, hk, hk'⟩, hb⟩ := check
  refine ⟨⟨k, hk, ?_⟩, ?_⟩
  · rw [e1, e1']; exact_mod_cast hk'
  · intro b hbm hu
    rw [e1']
    rcases hb b hbm with h | h
    · exfalso
      rw [Bool.eq_false_iff] at h
      refine h (List.all_eq_true.2 fun k hk => ?_)
      have := hu k hk
      rw [e1] at this
      rw [beq_iff_eq]
      by_cases hkb : k = b
      · rw [if_pos hkb] at this ⊢; exact_mod_cast this
      · rw [if_neg hkb] at this ⊢; exact_mod_cast this
    · exact_mod_cast h

/-- **C76, the SI.** For the generated code of src/si.rs, bit for bit: a serialised quantity that has a dimension and lost its end is an error to its type. -/
theorem C76_si (std : Bool) (powf : Fl → Fl → Fl) (powf_one : ∀ y, powf (f64Fmt.ofInt 1) y = f64Fmt.ofInt 1) (P : PlatformFns)
    (hP : P.lib = buildLib std powf) :
    letI := magOpsInt P.lib; letI := softPrims P; letI := softText coreText
    ∃ tokens defs, lex siLines = some tokens ∧ unitSystem (E := Int) Number.magnitude Prefix.factor tokens = .done (defs, []) ∧
      ∀ (d : DimVal Int) (s : Storage) (xs : Raw Fl) (text cut : Str), d.length = 7 → (∀ e ∈ d, InI32 e) → (∃ e ∈ d, e ≠ 0) →
        xs.length = s.numDims → (∀ x ∈ xs, s.base.fmt.Valid x) → serializeStr Magnitude defs s d xs = some text → cut <+: text → cut ≠ text →
        text.length < 2 ^ 29 → deserializeStr Magnitude defs s d cut = some (.error : Outcome (Raw Fl)) := by
  have hl : P.lib.Ones := by rw [hP]; exact buildLib_ones std powf_one
  have c46 := C46_si_float std powf
  rw [← hP] at c46
  let := magOpsInt P.lib; let := softPrims P; let := softText coreText
  let := softLawfulInt P coreText hl coreText_roundTrips
  obtain ⟨t, defs, F⟩ := si_facts (C36_int Number.magnitude Prefix.factor) c46
  obtain ⟨tokens, h1, h2⟩ := F.text
  have distinct : defs.baseDimensions.Nodup := by rw [F.base]; decide
  have seven : defs.baseDimensions.length = 7 := by rw [F.base]; rfl
  have finite : ∀ U ∈ defs.units, TextPrims.finite Magnitude (Prims.into .f64 U.mag : Fl) = true := by
    intro U hU
    obtain ⟨r, hr, pre, _, e2, _⟩ := F.units U hU
    exact text_finite coreText (si_storable hr e2).1
  have bound : ∀ U ∈ defs.units, ∀ k, |U.dims.expo k| ≤ (4 : Nat) := by
    intro V hV k
    obtain ⟨r, hr, pre, e1, _, _⟩ := F.units V hV
    rw [e1 k]
    exact_mod_cast SiExps.of_le (by norm_num) (siUnits_range r hr).2 k
  have safe : TearSafe defs := si_tear_safe F fun U hU hone r hr pre ⟨q, hq, he⟩ => by
    have hone' : U.mag.intoF64 P.lib = f64Fmt.ofInt 1 := LawfulText.isOne_into (E := Int) (K := Fl) hone
    rw [hone', show f64Fmt.val (f64Fmt.ofInt 1) = some 1 by decide +kernel, Option.some.injEq] at hq
    subst hq
    refine si_coherent r hr pre (mem_allPrefixes pre) (he.trans (mul_le_mul_of_nonneg_right ?_ (abs_nonneg _)))
    cases std <;> norm_num
  refine ⟨tokens, defs, h1, h2, fun d s xs text cut hd hi h0 hx hv hw hp hne hlen => ?_⟩
  have fields : d.length = defs.baseDimensions.length := by rw [hd, seven]
  have refused := C76_cut_refused (K := Fl) Prefix.factor t t (.refl t) defs defs F.run F.run (C18_literals_int _) (C18_literals_int _) distinct F.plain safe d d
    fields (fun e he => ⟨e, hi e he, rfl⟩) (by obtain ⟨e, he, hne⟩ := h0; exact ⟨e, he, by change ((e : Int) : ℚ) ≠ 0; exact_mod_cast hne⟩) fields
    (fun _ _ => trivial) (sameDimension_refl _ _) s xs hx (fun x hx => hv x hx) text hw cut hp hne
  obtain ⟨o, ho⟩ := C28_compiles (K := Fl) (M := Magnitude) Prefix.factor t defs F.run (C18_literals_int _) distinct finite s d cut
  have hcl : cut.length ≤ text.length := hp.length_le
  have nopanic : o ≠ .panic := by
    cases hs : s.isFloat with
    | false =>
      exact C30_no_panic Prefix.factor t defs F.run (C18_literals_int _) s hs d cut o ho 4 bound 1 one_pos (by norm_num)
        (fun U _ k => int_denominator _ k) (by omega)
    | true =>
      have hw := words_splitWs cut
      have hn := words_length hw
      exact C28_no_panic Prefix.factor t defs F.run (C18_literals_int _) s hs d cut o ho 4 bound 1 one_pos (by norm_num)
        (fun U _ k => int_denominator _ k) _ hw (by omega)
  rw [ho] at refused ⊢
  cases o with
  | ok r => exact absurd rfl (refused r)
  | error => rfl
  | panic => exact absurd rfl nopanic
/-! ### Concrete runs -/
section
open Sample
attribute [local instance] Sample.exactMag Sample.ratPrims Sample.ratText Sample.ratLawful

theorem C76.new_safe : TearSafe (C59.compiled C59.new) := by
  have hb : (C59.compiled C59.new).baseDimensions = [str!"mass", str!"length", str!"time"] := by decide +kernel
  have h : ∀ U ∈ (C59.compiled C59.new).units, ∀ V ∈ (C59.compiled C59.new).units, ∀ su ∈ U.symbol, ∀ sv ∈ V.symbol,
      (!sv.isEmpty && sv.isPrefixOf su && sv != su) = false := by decide +kernel
  intro U hU V hV _ su sv hsu hsv h0 hp hne
  have := h U hU V hV su hsu sv hsv
  rw [show sv.isEmpty = false by simpa using h0, show sv.isPrefixOf su = true by simpa using hp, show (sv != su) = true by simpa using hne] at this
  cases this

-- All hypotheses of C76_cut_refused hold for an acceleration written by the old version of C59 and read by the new one, whatever its value.
example (x : ℚ) (text cut : Str) (written : serializeStr ℚ (C59.compiled C59.old) .f64 ([1, -2] : DimVal Int) [x] = some text)
    (initial : cut <+: text) (short : cut ≠ text) (r : Raw ℚ) : deserializeStr ℚ (C59.compiled C59.new) .f64 ([0, 1, -2] : DimVal Int) cut ≠ some (.ok r) := by
  refine C76_cut_refused exactFactor C59.old C59.new C59.extends _ _ C59.old_accepted C59.new_accepted (C18_literals_int _) (C18_literals_int _)
    (by decide +kernel) ?_ C76.new_safe _ _ (by decide +kernel) ?_ ⟨1, by simp, ?_⟩ (by decide +kernel) (fun _ _ => trivial) C59.same .f64 [x] rfl
    (fun _ _ => trivial) text written cut initial short r
  · intro v hv s hs
    have h : ∀ v ∈ C59.old.units, ∀ s ∈ v.symbol, s ≠ [] ∧ (s.all fun c => !isWs c && !reservedChars.contains c) = true := by decide +kernel
    obtain ⟨h1, h2⟩ := h v hv s hs
    exact ⟨h1, fun c hc => by simpa using List.all_eq_true.1 h2 c hc⟩
  · intro e he
    simp only [List.mem_cons, List.not_mem_nil, or_false] at he
    rcases he with rfl | rfl
    · exact ⟨1, by decide, rfl⟩
    · exact ⟨-2, by decide, rfl⟩
  · decide

/-- **C76 fails for pure numbers.** Nothing marks the end of the text of a dimensionless quantity: cut short it can be read as another number. -/
theorem C76_not_dimensionless : ∃ (t : UnresolvedTemplates Int ℚ) (defs : Defs Int ℚ) (d : DimVal Int) (x y : ℚ) (text cut : Str),
    runUnitSystem exactFactor t = some (defs, []) ∧ (∀ e ∈ d, e = 0) ∧ serializeStr ℚ defs .f64 d [x] = some text ∧ cut <+: text ∧
    deserializeStr ℚ defs .f64 d cut = some (.ok [y]) ∧ x ≠ y :=
  ⟨C59.old, _, [0, 0], 3 / 25, 3 / 2, str!"3/25", str!"3/2", C59.old_accepted, by decide +kernel⟩

/-- A system in which the symbol of the base unit of mass begins like that of another unit of mass. -/
def C76.grams : UnresolvedTemplates Int ℚ where
  quantityTypes := [str!"Quantity"]
  dimensionTypes := [str!"Dimension"]
  dimensions := [⟨str!"Mass", .base ()⟩]
  units := [baseUnit (str!"grams") (str!"gr") (str!"Mass") [],
    unit (str!"grains") (.binary (.value (c (1 / 2))) .mul (v (str!"grams"))) (some (str!"g"))]
  constants := []

/-- **C76 needs tear-safe symbols.** In a system with the units `gr` and `g` of mass, `4 gr` loses a letter and is read as four of the other unit. -/
theorem C76_needs_safe : ∃ (t : UnresolvedTemplates Int ℚ) (defs : Defs Int ℚ) (d : DimVal Int) (x y : ℚ) (text cut : Str),
    runUnitSystem exactFactor t = some (defs, []) ∧ (∃ e ∈ d, e ≠ 0) ∧ serializeStr ℚ defs .f64 d [x] = some text ∧ cut <+: text ∧
    deserializeStr ℚ defs .f64 d cut = some (.ok [y]) ∧ x ≠ y :=
  ⟨C76.grams, _, [1], 4, 2, str!"4/1 gr", str!"4/1 g", C59.run (by decide +kernel), by decide +kernel⟩
end
end Diman
