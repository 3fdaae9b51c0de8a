import Verif.Props.C26
import Verif.Props.C28
/-! The printed units of a quantity are read back. -/
set_option linter.unusedSectionVars false
namespace Diman
open LawfulExponent
section
variable {E K M : Type} [Exponent E] [LawfulExponent E] [FieldOps E] [LawfulFieldOps E] [TotalFields E] [WrittenExponent E]
  [ShowExponent E] [LawfulShow E] [MagOps E M] [Prims K M] [TextPrims K M] [LawfulText E K M]

/-- A printed unit without the leading space. -/
def UnitTerm.word (t : UnitTerm E M) : Str :=
  match t.exponent with
  | none => t.symbol
  | some e => t.symbol ++ '^' :: ShowExponent.showE e

theorem UnitTerm.text_eq (t : UnitTerm E M) : t.text = ' ' :: t.word := by
  unfold UnitTerm.text UnitTerm.word; cases t.exponent <;> rfl

/-- The printed integer power. -/
noncomputable def UnitTerm.int (t : UnitTerm E M) : Int := t.power.num

theorem UnitTerm.word_ne (t : UnitTerm E M) (h : t.symbol ≠ []) : t.word ≠ [] := by
  unfold UnitTerm.word; cases t.exponent <;> simp [h]

theorem words_terms (terms : List (UnitTerm E M)) (h : ∀ u ∈ terms, u.word ≠ [] ∧ ∀ c ∈ u.word, isWs c = false) :
    Words (terms.map UnitTerm.text).flatten (terms.map UnitTerm.word) ∧
      ∀ c ∈ (terms.map UnitTerm.text).flatten.head?, isWs c = true := by
  induction terms with
  | nil => exact ⟨.blank (by simp), by simp⟩
  | cons u us ih =>
    obtain ⟨i1, i2⟩ := ih fun v hv => h v (by simp [hv])
    rw [List.map_cons, List.flatten_cons, UnitTerm.text_eq]
    refine ⟨?_, ?_⟩
    · have := Words.word (gap := [' ']) (by decide) (h u (by simp)).1 (h u (by simp)).2 i2 i1
      simpa using this
    · intro c hc
      simp only [List.cons_append, List.head?_cons, Option.mem_def, Option.some.injEq] at hc
      subst hc; decide

/-- A number followed by printed units. -/
theorem words_number {num : Str} (hn : PlainText num) (terms : List (UnitTerm E M))
    (h : ∀ u ∈ terms, u.word ≠ [] ∧ ∀ c ∈ u.word, isWs c = false) :
    Words (num ++ (terms.map UnitTerm.text).flatten) (num :: terms.map UnitTerm.word) := by
  obtain ⟨h1, h2⟩ := words_terms terms h
  have := Words.word (gap := []) (by simp) hn.1 (fun c hc => (hn.2 c hc).1) h2 h1
  simpa using this

theorem factor_one {us : UnitPowers E M} (h : ∀ u ∈ us, MagOps.isOne E u.1.mag = true ∧ InI32 u.2) : us.factor K = Prims.one M .f64 := by
  unfold UnitPowers.factor
  induction us with
  | nil => rfl
  | cons u us ih =>
    rw [List.foldl_cons, LawfulText.isOne_into (h u (by simp)).1, LawfulText.pow_one (h u (by simp)).2, LawfulText.one_mul_one (E := E)]
    exact ih fun v hv => h v (by simp [hv])

/-- Everything known about the printed units of a dimension with integer exponents. -/
theorem printed_units (factor : Prefix → M) (t : UnresolvedTemplates E M) (defs : Defs E M)
    (accepted : runUnitSystem factor t = some (defs, []))
    (literals : (UnresolvedTemplates.expand (MagOps.one E) factor t).LitExponents (WrittenExponent.Ok : E → Prop))
    (distinct : defs.baseDimensions.Nodup)
    (hasBase : ∀ d ∈ t.dimensions, d.rhs = .base () → ∃ v ∈ t.units, v.definition = .base d.name)
    (symbols : t.PlainSymbols)
    (d : DimVal E) (fields : d.length = defs.baseDimensions.length) (integer : ∀ e ∈ d, ∃ i : Int, InI32 i ∧ e = Exponent.ofInt i)
    (value : Str) :
    ∃ terms : List (UnitTerm E M), debugFmt K defs d value = some (value ++ (terms.map UnitTerm.text).flatten) ∧
      (∀ u ∈ terms, u.word ≠ [] ∧ ∀ c ∈ u.word, isWs c = false ∧ c ∉ ['(', ')', '[', ']', ',']) ∧
      ∃ us : UnitPowers E M, NamesUnits defs (terms.map UnitTerm.word) us ∧ HasDimension defs us d ∧ us.factor K = Prims.one M .f64 ∧
        ∀ tbl : List (TableUnit E K), unitTable M defs.baseDimensions defs.units = some tbl →
          readUnits M tbl (DimVal.none defs.baseDimensions.length) (Prims.one M .f64) (terms.map UnitTerm.word) =
            .ok (d, Prims.one M .f64) := by
  obtain ⟨res, h⟩ := accepted_of_run accepted
  obtain ⟨terms, hp, ht, habs, hexp⟩ := debug_terms (K := K) factor t defs accepted literals distinct hasBase d fields value
  have hplain : ∀ u ∈ terms, PlainText u.symbol := fun u hu => symbols_plain h symbols (hp.units u hu).1 (hp.units u hu).2
  have hpow : ∀ u ∈ terms, InI32 u.int ∧ (u.int : ℚ) = u.power ∧ (u.exponent = none → u.int = 1) ∧
      ∀ e, u.exponent = some e → e = Exponent.ofInt u.int := by
    intro u hu
    unfold UnitTerm.int UnitTerm.power
    cases hx : u.exponent with
    | none => simp; decide
    | some e =>
      obtain ⟨i, hi, he⟩ := integer e (hp.exponents u hu e hx)
      subst he
      simp only [ofInt_val, Rat.num_intCast, reduceCtorEq, Option.some.injEq, forall_eq', IsEmpty.forall_iff, and_true]
      exact hi
  have hword : ∀ u ∈ terms, UnitWord u.word u.symbol u.int := by
    intro u hu
    obtain ⟨h1, h2, h3, h4⟩ := hpow u hu
    have hcaret : '^' ∉ u.symbol := fun hc => ((hplain u hu).2 _ hc).2 (by decide)
    unfold UnitTerm.word
    cases hx : u.exponent with
    | none => exact .inl ⟨hcaret, rfl, h3 hx⟩
    | some e =>
      refine .inr ⟨_, rfl, hcaret, ?_, h1⟩
      rw [h4 e hx, LawfulShow.show_ofInt]
      exact showInt_numeral _
  have hchars : ∀ u ∈ terms, u.word ≠ [] ∧ ∀ c ∈ u.word, isWs c = false ∧ c ∉ ['(', ')', '[', ']', ','] := by
    intro u hu
    refine ⟨u.word_ne (hplain u hu).1, ?_⟩
    have hs : ∀ c ∈ u.symbol, isWs c = false ∧ c ∉ ['(', ')', '[', ']', ','] := fun c hc =>
      ⟨((hplain u hu).2 c hc).1, fun hm => ((hplain u hu).2 c hc).2 (List.mem_cons_of_mem _ hm)⟩
    unfold UnitTerm.word
    cases hx : u.exponent with
    | none => exact hs
    | some e =>
      intro c hc
      simp only [List.mem_append, List.mem_cons] at hc
      rcases hc with hc | rfl | hc
      · exact hs c hc
      · decide
      · rw [(hpow u hu).2.2.2 e hx, LawfulShow.show_ofInt] at hc
        exact ⟨(showInt_chars hc).1, fun hm => (showInt_chars hc).2.1 (List.mem_cons_of_mem _ hm)⟩
  have hnames : NamesUnits defs (terms.map UnitTerm.word) (terms.map fun u => (u.unit, u.int)) := by
    unfold NamesUnits
    rw [List.forall₂_map_left_iff, List.forall₂_map_right_iff]
    exact List.forall₂_same.2 fun u hu => ⟨(hp.units u hu).1, _, (hp.units u hu).2, hword u hu⟩
  have hdim : HasDimension defs (terms.map fun u => (u.unit, u.int)) d := by
    unfold HasDimension
    rw [hp.dimension]
    refine List.map_congr_left fun k _ => ?_
    unfold UnitPowers.expo
    rw [List.map_map]
    exact congrArg List.sum (List.map_congr_left fun u hu => by simp only [Function.comp, (hpow u hu).2.1])
  have hfac : UnitPowers.factor K (terms.map fun u => (u.unit, u.int)) = Prims.one M .f64 := by
    refine factor_one fun v hv => ?_
    obtain ⟨u, hu, rfl⟩ := List.mem_map.1 hv
    exact ⟨hp.one u hu, (hpow u hu).1⟩
  refine ⟨terms, ht, hchars, _, hnames, hdim, hfac, fun tbl htbl => ?_⟩
  have hval : ∀ q ∈ d.vec, ∃ i : Int, InI32 i ∧ q = i := by
    intro q hq
    obtain ⟨e, he, rfl⟩ := List.mem_map.1 hq
    obtain ⟨i, hi, rfl⟩ := integer e he
    exact ⟨i, hi, ofInt_val i⟩
  obtain ⟨tus, g1, g2⟩ := names_tableWords h htbl hnames
  obtain ⟨d', hd'⟩ := readUnits_succeeds h literals g2 (L := 1) one_pos (by norm_num)
    (fun v hv k hk => by
      obtain ⟨u, hu, rfl⟩ := List.mem_map.1 hv
      rcases hexp u hu k hk with h1 | h1 | h1
      · obtain ⟨i, _, hi⟩ := hval _ h1
        exact ⟨i, by rw [hi]; simp⟩
      · exact ⟨0, by rw [h1]; simp⟩
      · exact ⟨1, by rw [h1]; simp⟩)
    (fun k hk => by
      rw [List.map_map]
      have hm : ((terms.map fun u => |u.power * u.unit.dims.expo k|).sum) ∈ d.vec.map fun q => |q| := by
        rw [habs]; exact List.mem_map.2 ⟨k, hk, rfl⟩
      obtain ⟨q, hq, hs⟩ := List.mem_map.1 hm
      obtain ⟨i, hi, rfl⟩ := hval q hq
      have he : (terms.map ((fun v : UnitDef E M × Int => |(v.2 : ℚ) * v.1.dims.expo k|) ∘ fun u => (u.unit, u.int))).sum =
          (terms.map fun u => |u.power * u.unit.dims.expo k|).sum :=
        congrArg List.sum (List.map_congr_left fun u hu => by simp only [Function.comp, (hpow u hu).2.1])
      rw [he, ← hs]
      have : |i| ≤ 2 ^ 31 := abs_le.2 ⟨hi.1, by have := hi.2; omega⟩
      have : |(i : ℚ)| ≤ 2 ^ 31 := by exact_mod_cast this
      norm_num at this ⊢
      linarith)
  have hr := readUnits_of (M := M) g1 (Prims.one M .f64) hd'
  rw [factor_eq g2, hfac] at hr
  rcases (readUnits_spec h literals htbl _).2 _ hnames with hpn | ⟨d2, h2, c2, e2⟩
  · rw [hpn] at hr; cases hr
  · rw [h2, hfac]
    have : d2 = d := DimVal.ext c2 (fun e he => by obtain ⟨i, _, rfl⟩ := integer e he; exact ofInt_canon i) (e2.trans hdim.symm)
    rw [this]
end
end Diman
