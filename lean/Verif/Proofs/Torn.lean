import Verif.Spec.Torn
import Verif.Props.C30
import Verif.Proofs.Versions
/-! A printed text that is cut short does not name the units of the whole text. -/
set_option linter.unusedSectionVars false
namespace Diman
open LawfulExponent

theorem digitChar_inj {a b : Nat} (ha : a < 10) (hb : b < 10) (h : digitChar a = digitChar b) : a = b := by
  have h1 := digitVal_digitChar ha
  rw [h, digitVal_digitChar hb] at h1
  injection h1 with h1
  exact h1.symm

theorem map_digitChar_inj {a b : List Nat} (ha : ∀ d ∈ a, d < 10) (hb : ∀ d ∈ b, d < 10) (h : a.map digitChar = b.map digitChar) : a = b := by
  induction a generalizing b with
  | nil => cases b <;> simp_all
  | cons x a ih =>
    cases b with
    | nil => simp at h
    | cons y b =>
      simp only [List.map_cons, List.cons.injEq] at h
      rw [digitChar_inj (ha x (by simp)) (hb y (by simp)) h.1, ih (fun d hd => ha d (by simp [hd])) (fun d hd => hb d (by simp [hd])) h.2]

/-- A decimal number that is cut short is another number. -/
theorem digits_cut {n m : Nat} {t r : Str} (h : showNat n = t ++ r) (hr : r ≠ []) (ht : DigitText t m) : m ≠ n := by
  rintro rfl
  obtain ⟨ds, h1, h2, h3, h4⟩ := showNat_text m
  obtain ⟨ds', g1, g2, g3, g4⟩ := ht
  have hd : ∃ rest, rest ≠ [] ∧ ds = ds' ++ rest := by
    rw [h3] at h
    obtain ⟨a, b, rfl, ha, hb⟩ := List.map_eq_append_iff.1 h
    refine ⟨b, fun hc => hr (by rw [← hb, hc]; rfl), ?_⟩
    rw [map_digitChar_inj (fun d hd => h2 d (by simp [hd])) g2 (ha.trans g3)]
  obtain ⟨rest, hrest, rfl⟩ := hd
  rw [List.reverse_append, Nat.ofDigits_append, ← g4, List.length_reverse] at h4
  have hlen : 0 < rest.length := List.length_pos_iff.2 hrest
  have h10 : 10 ≤ 10 ^ rest.length := by calc 10 = 10 ^ 1 := rfl
    _ ≤ 10 ^ rest.length := Nat.pow_le_pow_right (by omega) hlen
  have hm : m = 0 := by
    by_contra hm
    have : 10 * m ≤ 10 ^ rest.length * m := Nat.mul_le_mul_right m h10
    omega
  subst hm
  rw [g3] at h
  have e : showNat 0 = ['0'] := by unfold showNat; rfl
  rw [e] at h
  cases ds' with
  | nil => exact g1 rfl
  | cons x xs =>
    simp only [List.map_cons, List.cons_append, List.cons.injEq] at h
    have := h.2
    simp at this
    exact hr this.2

/-- The same with a sign. -/
theorem numeral_cut {e i : Int} {t r : Str} (h : showInt e = t ++ r) (hr : r ≠ []) (ht : IntNumeral t i) : i ≠ e := by
  rintro rfl
  have nosign : ∀ {n : Nat} {c : Char} {cs : Str}, showNat n = c :: cs ++ r → c = '+' ∨ c = '-' → False := by
    intro n c cs h hc
    obtain ⟨d, hd, he⟩ := digitText_chars (showNat_text n) (c := c) (by rw [h]; simp)
    have := digitChar_props hd
    rcases hc with rfl | rfl
    · exact this.2.2.1 he.symm
    · exact this.2.2.2.1 he.symm
  unfold showInt at h
  split at h
  · obtain ⟨n, ⟨h1, rfl⟩ | ⟨cs, rfl, h1, rfl⟩ | ⟨cs, rfl, h1, h2⟩⟩ := ht
    · omega
    · simp at h
    · simp only [List.cons_append, List.cons.injEq, true_and] at h
      exact digits_cut h hr h1 (by omega)
  · obtain ⟨n, ⟨h1, h2⟩ | ⟨cs, rfl, h1, rfl⟩ | ⟨cs, rfl, h1, h2⟩⟩ := ht
    · exact digits_cut h hr h1 (by omega)
    · exact nosign h (.inl rfl)
    · exact nosign h (.inr rfl)

section
variable {E K M : Type} [Exponent E] [LawfulExponent E] [FieldOps E] [LawfulFieldOps E] [TotalFields E] [WrittenExponent E]
  [ShowExponent E] [LawfulShow E] [MagOps E M] [Prims K M] [TextPrims K M] [LawfulText E K M]

/-- The exponent of `k` in the product of printed units. -/
def termsExpo (terms : List (UnitTerm E M)) (k : Str) : ℚ := (terms.map fun u => u.power * u.unit.dims.expo k).sum

/-- What makes the printed terms safe against being cut. -/
def Tearproof (defs : Defs E M) : List (UnitTerm E M) → Prop
  | [] => True
  | u :: rest =>
    (u.unit ∈ defs.units ∧ u.unit.symbol = some u.symbol ∧ PlainText u.symbol ∧ (∀ e, u.exponent = some e → ∃ i : Int, InI32 i ∧ i ≠ 1 ∧ e = Exponent.ofInt i)) ∧
    (∃ b ∈ defs.baseDimensions, u.power * u.unit.dims.expo b ≠ 0 ∧ ∀ v ∈ rest, v.unit.dims.expo b = 0) ∧
    (∀ V ∈ defs.units, ∀ sv, V.symbol = some sv → sv ≠ [] → sv <+: u.symbol → sv ≠ u.symbol →
      ∃ k ∈ defs.baseDimensions, V.dims.expo k ≠ termsExpo (u :: rest) k) ∧
    Tearproof defs rest

theorem termsExpo_zero {terms : List (UnitTerm E M)} {b : Str} (h : ∀ v ∈ terms, v.unit.dims.expo b = 0) : termsExpo terms b = 0 := by
  unfold termsExpo
  induction terms with
  | nil => rfl
  | cons u terms ih => simp [h u (by simp), ih fun v hv => h v (by simp [hv])]

theorem Tearproof.chars {defs : Defs E M} {terms : List (UnitTerm E M)} (h : Tearproof defs terms) :
    ∀ u ∈ terms, u.word ≠ [] ∧ ∀ c ∈ u.word, isWs c = false ∧ c ∉ ['(', ')', '[', ']', ','] := by
  induction terms with
  | nil => simp
  | cons u terms ih =>
    obtain ⟨⟨-, -, hp, hx⟩, -, -, hr⟩ := h
    intro v hv
    rcases List.mem_cons.1 hv with rfl | hv
    · refine ⟨v.word_ne hp.1, ?_⟩
      have hs : ∀ c ∈ v.symbol, isWs c = false ∧ c ∉ ['(', ')', '[', ']', ','] := fun c hc =>
        ⟨(hp.2 c hc).1, fun hm => (hp.2 c hc).2 (List.mem_cons_of_mem _ hm)⟩
      unfold UnitTerm.word
      cases he : v.exponent with
      | none => exact hs
      | some e =>
        obtain ⟨i, -, -, rfl⟩ := hx e he
        intro c hc
        simp only [List.mem_append, List.mem_cons] at hc
        rcases hc with hc | rfl | hc
        · exact hs c hc
        · decide
        · rw [LawfulShow.show_ofInt] at hc
          exact ⟨(showInt_chars hc).1, fun hm => (showInt_chars hc).2.1 (List.mem_cons_of_mem _ hm)⟩
    · exact ih hr v hv

/-- One printed unit power that is cut short. -/
theorem word_cut {u : UnitTerm E M} (hp : PlainText u.symbol) (hx : ∀ e, u.exponent = some e → ∃ i : Int, InI32 i ∧ i ≠ 1 ∧ e = Exponent.ofInt i) {w r : Str}
    (hw : u.word = w ++ r) (hr : r ≠ []) {sym : Str} {i : Int} (h : UnitWord w sym i) :
    (i = 1 ∧ sym = w ∧ w <+: u.symbol ∧ w ≠ u.symbol) ∨ (sym = u.symbol ∧ (i : ℚ) ≠ u.power) := by
  have hc : '^' ∉ u.symbol := fun h => (hp.2 _ h).2 (by decide)
  unfold UnitTerm.word at hw
  unfold UnitTerm.power
  cases he : u.exponent with
  | none =>
    rw [he] at hw
    simp only at hw
    rcases h with ⟨h1, rfl, rfl⟩ | ⟨t, rfl, -⟩
    · exact .inl ⟨rfl, rfl, ⟨r, hw.symm⟩, fun h => hr (by rw [h] at hw; simpa using hw.symm)⟩
    · rw [hw] at hc; simp at hc
  | some e =>
    rw [he] at hw
    obtain ⟨j, -, hj, rfl⟩ := hx e he
    simp only [LawfulShow.show_ofInt] at hw
    simp only [ofInt_val]
    rcases h with ⟨h1, rfl, rfl⟩ | ⟨t, rfl, h1, h2, -⟩
    · by_cases hs : sym = u.symbol
      · exact .inr ⟨hs, by simpa using fun h => hj (by exact_mod_cast h.symm)⟩
      · refine .inl ⟨rfl, rfl, ?_, hs⟩
        rcases List.append_eq_append_iff.1 hw with ⟨a, ha, hb⟩ | ⟨a, ha, hb⟩
        · cases a with
          | nil => simp at ha; exact absurd ha hs
          | cons c a =>
            simp only [List.cons_append, List.cons.injEq] at hb
            rw [ha, ← hb.1] at h1
            simp at h1
        · exact ⟨a, ha.symm⟩
    · rw [List.append_assoc, List.cons_append] at hw
      have : u.symbol = sym ∧ showInt j = t ++ r := by
        have e1 := takeWhile_stop (c := '^') (b := showInt j) hc
        have e2 := takeWhile_stop (c := '^') (b := t ++ r) h1
        rw [hw, e2] at e1
        subst e1
        exact ⟨rfl, by simpa using hw⟩
      refine .inr ⟨this.1.symm, ?_⟩
      have := numeral_cut this.2 hr h2
      exact_mod_cast this

/-- A proper initial piece of the printed units names other units. -/
theorem torn_core {defs : Defs E M} (unique : ∀ U ∈ defs.units, ∀ V ∈ defs.units, ∀ s, U.symbol = some s → V.symbol = some s → U = V)
    {terms : List (UnitTerm E M)} (hT : Tearproof defs terms) {p : Str} (hp : p <+: (terms.map UnitTerm.text).flatten)
    (hne : p ≠ (terms.map UnitTerm.text).flatten) {ws : List Str} {us : UnitPowers E M} (hw : Words p ws) (hn : NamesUnits defs ws us) :
    ∃ k ∈ defs.baseDimensions, us.expo k ≠ termsExpo terms k := by
  induction terms generalizing p ws us with
  | nil => simp at hp; exact absurd hp (by simpa using hne)
  | cons u rest ih =>
    have hchars := hT.chars
    obtain ⟨⟨hu, hs, hpl, hx⟩, ⟨b, hb, hb1, hb2⟩, hV, hrest⟩ := hT
    have hsum : termsExpo (u :: rest) b ≠ 0 := by
      have := termsExpo_zero hb2
      unfold termsExpo at this ⊢
      rw [List.map_cons, List.sum_cons, this, add_zero]
      exact hb1
    have hnil : us = [] → ∃ k ∈ defs.baseDimensions, us.expo k ≠ termsExpo (u :: rest) k := by
      rintro rfl
      exact ⟨b, hb, by simpa [UnitPowers.expo] using hsum.symm⟩
    have hws : ∀ {q : Str}, splitWs q = splitWs (' ' :: q) := fun {q} => (splitWs_space (by decide) q).symm
    rw [List.map_cons, List.flatten_cons, UnitTerm.text_eq, List.cons_append] at hp hne
    cases p with
    | nil =>
      refine hnil ?_
      have : ws = [] := by rw [← splitWs_iff.2 hw]; rfl
      subst this
      cases hn; rfl
    | cons c p =>
      obtain ⟨hc0, hp'⟩ := List.cons_prefix_cons.1 hp
      subst hc0
      replace hne : p ≠ u.word ++ (rest.map UnitTerm.text).flatten := fun h => hne (by rw [h])
      have hsp : splitWs p = ws := by rw [hws]; exact splitWs_iff.2 hw
      obtain ⟨r, hr⟩ := hp'
      rcases List.append_eq_append_iff.1 hr with ⟨a, ha, hb'⟩ | ⟨a, ha, hb'⟩
      · -- within the first word
        by_cases hp0 : p = []
        · refine hnil ?_
          subst hp0
          have : ws = [] := by rw [← hsp]; rfl
          subst this
          cases hn; rfl
        · have hpw : ∀ c ∈ p, isWs c = false := fun c hc => ((hchars u (by simp)).2 c (by rw [ha]; simp [hc])).1
          have hone : ws = [p] := by
            rw [← hsp]
            have := splitWs_word (rest := []) hp0 hpw (by simp)
            have e0 : splitWs [] = [] := rfl
            rwa [List.append_nil, e0] at this
          subst hone
          obtain ⟨v, vs, hv, hvs, rfl⟩ := List.forall₂_cons_left_iff.1 hn
          cases hvs
          obtain ⟨hvu, sym, hsym, hword⟩ := hv
          have hexpo : ∀ k, UnitPowers.expo [v] k = (v.2 : ℚ) * v.1.dims.expo k := fun k => by simp [UnitPowers.expo]
          by_cases ha0 : a = []
          · -- the whole word, but then something follows
            subst ha0
            simp only [List.append_nil] at ha
            rw [← ha] at hword
            have hword' : UnitWord u.word u.symbol u.int := by
              have hcaret : '^' ∉ u.symbol := fun h => (hpl.2 _ h).2 (by decide)
              unfold UnitTerm.word UnitTerm.int UnitTerm.power
              cases he : u.exponent with
              | none => exact .inl ⟨hcaret, rfl, by simp⟩
              | some e =>
                obtain ⟨j, hj1, -, rfl⟩ := hx e he
                simp only [LawfulShow.show_ofInt, ofInt_val, Rat.num_intCast]
                exact .inr ⟨_, rfl, hcaret, showInt_numeral j, hj1⟩
            have hint : (u.int : ℚ) = u.power := by
              unfold UnitTerm.int UnitTerm.power
              cases he : u.exponent with
              | none => simp
              | some e => obtain ⟨j, -, -, rfl⟩ := hx e he; simp [ofInt_val]
            obtain ⟨e1, e2⟩ := unitWord_unique hword hword'
            have : v.1 = u.unit := unique _ hvu _ hu _ hsym (by rw [hs, e1])
            obtain ⟨k, hk, hk'⟩ := ih hrest (p := []) (ws := []) (us := []) (List.nil_prefix)
              (fun hc => hne (by rw [← hc, ha]; simp)) (.blank (by simp)) .nil
            refine ⟨k, hk, ?_⟩
            rw [hexpo, e2, this, hint]
            unfold termsExpo at hk' ⊢
            rw [List.map_cons, List.sum_cons]
            intro hc
            refine hk' ?_
            simp only [UnitPowers.expo, List.map_nil, List.sum_nil]
            linarith
          · rcases word_cut hpl hx ha ha0 hword with ⟨h1, rfl, h3, h4⟩ | ⟨rfl, h2⟩
            · obtain ⟨k, hk, hk'⟩ := hV v.1 hvu _ hsym hp0 h3 h4
              refine ⟨k, hk, ?_⟩
              rw [hexpo, h1]
              simpa using hk'
            · have : v.1 = u.unit := unique _ hvu _ hu _ hsym hs
              refine ⟨b, hb, ?_⟩
              rw [hexpo, this]
              have h0 := termsExpo_zero hb2
              unfold termsExpo at h0 ⊢
              rw [List.map_cons, List.sum_cons, h0, add_zero]
              intro hc
              have hne0 : u.unit.dims.expo b ≠ 0 := fun h => hb1 (by rw [h, mul_zero])
              exact h2 (mul_right_cancel₀ hne0 hc)
      · -- the whole first word and a piece of the others
        subst ha
        have hpre : a <+: (rest.map UnitTerm.text).flatten := ⟨r, hb'.symm⟩
        have hhead : ∀ c ∈ a.head?, isWs c = true := by
          intro c hc
          cases a with
          | nil => simp at hc
          | cons x a =>
            simp at hc
            subst hc
            cases rest with
            | nil => simp at hpre
            | cons v rest =>
              rw [List.map_cons, List.flatten_cons, UnitTerm.text_eq, List.cons_append] at hpre
              rw [(List.cons_prefix_cons.1 hpre).1]
              decide
        have hsplit := splitWs_word (hchars u (by simp)).1 (fun c hc => ((hchars u (by simp)).2 c hc).1) hhead
        rw [hsp] at hsplit
        subst hsplit
        obtain ⟨v, vs, hv, hvs, rfl⟩ := List.forall₂_cons_left_iff.1 hn
        obtain ⟨hvu, sym, hsym, hword⟩ := hv
        have hword' : UnitWord u.word u.symbol u.int := by
          have hcaret : '^' ∉ u.symbol := fun h => (hpl.2 _ h).2 (by decide)
          unfold UnitTerm.word UnitTerm.int UnitTerm.power
          cases he : u.exponent with
          | none => exact .inl ⟨hcaret, rfl, by simp⟩
          | some e =>
            obtain ⟨j, hj1, -, rfl⟩ := hx e he
            simp only [LawfulShow.show_ofInt, ofInt_val, Rat.num_intCast]
            exact .inr ⟨_, rfl, hcaret, showInt_numeral j, hj1⟩
        have hint : (u.int : ℚ) = u.power := by
          unfold UnitTerm.int UnitTerm.power
          cases he : u.exponent with
          | none => simp
          | some e => obtain ⟨j, -, -, rfl⟩ := hx e he; simp [ofInt_val]
        obtain ⟨e1, e2⟩ := unitWord_unique hword hword'
        have : v.1 = u.unit := unique _ hvu _ hu _ hsym (by rw [hs, e1])
        obtain ⟨k, hk, hk'⟩ := ih hrest hpre (fun hc => hne (by rw [hc])) (words_splitWs a) hvs
        refine ⟨k, hk, ?_⟩
        unfold termsExpo at hk' ⊢
        unfold UnitPowers.expo at hk' ⊢
        rw [List.map_cons, List.sum_cons, List.map_cons, List.sum_cons, e2, this, hint]
        intro hc
        exact hk' (by linarith)

theorem exponentAt_cons (b : Str) (l : List Str) (x : E) (e : DimVal E) (k : Str) :
    exponentAt (b :: l) (x :: e) k = if b = k then val x else exponentAt l e k := by
  unfold exponentAt
  rw [List.zip_cons_cons, List.find?_cons]
  by_cases h : b = k
  · simp [h]
  · simp [h]

theorem exponentAt_absent {l : List Str} {e : DimVal E} {k : Str} (h : k ∉ l) : exponentAt l e k = 0 := by
  unfold exponentAt
  have : (l.zip e).find? (fun p => decide (p.1 = k)) = none := by
    rw [List.find?_eq_none]
    intro p hp
    simp only [decide_eq_true_eq]
    rintro rfl
    exact h (List.of_mem_zip hp).1
  rw [this]; rfl

/-- What a version prints is safe against being cut, for a later version that is tear-safe. -/
theorem printed_tearproof {factor : Prefix → M} {t : UnresolvedTemplates E M} {defs defs' : Defs E M}
    (accepted : runUnitSystem factor t = some (defs, []))
    (literals : (UnresolvedTemplates.expand (MagOps.one E) factor t).LitExponents (WrittenExponent.Ok : E → Prop))
    (distinct : defs.baseDimensions.Nodup) (symbols : t.PlainSymbols) (hunits : ∀ U ∈ defs.units, U ∈ defs'.units)
    (hbase : ∀ b ∈ defs.baseDimensions, b ∈ defs'.baseDimensions) (safe : TearSafe defs')
    {d : DimVal E} (fields : d.length = defs.baseDimensions.length) (integer : ∀ e ∈ d, ∃ i : Int, InI32 i ∧ e = Exponent.ofInt i)
    (nonzero : ∃ e ∈ d, val e ≠ 0) {value text : Str} (run : debugFmt K defs d value = some text) :
    ∃ terms : List (UnitTerm E M), text = value ++ (terms.map UnitTerm.text).flatten ∧ Tearproof defs' terms ∧
      ∀ k, termsExpo terms k = exponentAt defs.baseDimensions d k := by
  obtain ⟨res, h⟩ := accepted_of_run accepted
  unfold debugFmt at run
  rw [bindM_eq_some] at run
  obtain ⟨tbl, ht, run⟩ := run
  rw [bindM_eq_some] at run
  obtain ⟨txt, hx, run⟩ := run
  rw [pure_eq_some] at run
  subst run
  have hzero : ∀ U ∈ defs.units, ∀ k, k ∉ defs.baseDimensions → U.dims.expo k = 0 := by
    intro U hU k hk
    obtain ⟨v, -, -, hv⟩ := C18_exponents factor t defs accepted literals distinct _ (unit_mem_allDims hU)
    exact hv k hk
  have hfrom : ∀ {tu : TableUnit E K}, tu ∈ tbl → ∃ U, U ∈ defs.units ∧ MagOps.isOne E U.mag = true ∧ U.symbol = some tu.symbol ∧
      tu.dimension.vec = defs.baseDimensions.map U.dims.expo := by
    intro tu htu
    obtain ⟨U, hU, ho⟩ := (unitTable_spec ht).1 tu htu
    obtain ⟨hU, h1⟩ := List.mem_filter.1 hU
    exact ⟨U, hU, by simpa using h1, ho.1, (unit_dimension h literals hU ho.2.1).2⟩
  unfold debugUnitText at hx
  cases hf : firstUnitFor tbl d with
  | some tu =>
    rw [hf] at hx
    simp only [Option.some.injEq] at hx
    subst hx
    obtain ⟨hm, hd⟩ := firstUnitFor_some hf
    obtain ⟨U, hU, h1, hs, hv⟩ := hfrom hm
    rw [hd, vec_exponentAt distinct fields] at hv
    have hexp : ∀ k, U.dims.expo k = exponentAt defs.baseDimensions d k := by
      intro k
      by_cases hk : k ∈ defs.baseDimensions
      · exact (List.map_inj_left.1 hv k hk).symm
      · rw [hzero U hU k hk, exponentAt_absent hk]
    have hsum : ∀ k, termsExpo [(⟨U, tu.symbol, none⟩ : UnitTerm E M)] k = U.dims.expo k := fun k => by simp [termsExpo, UnitTerm.power]
    refine ⟨[⟨U, tu.symbol, none⟩], by simp [UnitTerm.text], ⟨⟨hunits U hU, hs, symbols_plain h symbols hU hs, by simp⟩, ?_, ?_, trivial⟩, ?_⟩
    · obtain ⟨e, he, hne⟩ := nonzero
      have : val e ∈ d.vec := List.mem_map_of_mem he
      rw [vec_exponentAt distinct fields] at this
      obtain ⟨k, hk, hk'⟩ := List.mem_map.1 this
      refine ⟨k, hbase k hk, ?_, by simp⟩
      simpa [UnitTerm.power, hexp, hk'] using hne
    · intro V hV sv hsv h0 hp hne
      obtain ⟨k, hk, hk'⟩ := (safe U (hunits U hU) V hV h1 _ _ hs hsv h0 hp hne).1
      exact ⟨k, hk, by rw [hsum]; exact hk'⟩
    · intro k; rw [hsum, hexp]
  | none =>
    rw [hf] at hx
    simp only [Option.map_eq_some_iff] at hx
    obtain ⟨parts, hx, rfl⟩ := hx
    have main : ∀ (l : List Str) (e : DimVal E), e.length = l.length → l.Nodup → (∀ b ∈ l, b ∈ defs.baseDimensions) →
        (∀ x ∈ e, ∃ i : Int, InI32 i ∧ x = Exponent.ofInt i) → ∀ parts,
        ((l.zip e).mapM fun be => baseSymbolText defs.baseDimensions tbl be.1 be.2) = some parts →
        ∃ terms : List (UnitTerm E M), parts.flatten = (terms.map UnitTerm.text).flatten ∧ Tearproof defs' terms ∧
          (∀ u ∈ terms, ∀ b, b ∉ l → u.unit.dims.expo b = 0) ∧ ∀ k, termsExpo terms k = exponentAt l e k := by
      intro l
      induction l with
      | nil =>
        intro e he _ _ _ parts hp
        obtain rfl : e = [] := List.length_eq_zero_iff.1 he
        simp only [List.zip_nil_left, List.mapM_nil, pure_eq_some] at hp
        subst hp
        exact ⟨[], rfl, trivial, by simp, fun k => rfl⟩
      | cons b l ih =>
        intro e he hn hl hint parts hp
        cases e with
        | nil => simp at he
        | cons x e =>
          rw [List.zip_cons_cons, List.mapM_cons] at hp
          rw [bindM_eq_some] at hp
          obtain ⟨part, hpart, hp⟩ := hp
          rw [bindM_eq_some] at hp
          obtain ⟨parts', hparts, hp⟩ := hp
          rw [pure_eq_some] at hp
          subst hp
          obtain ⟨hbl, hn⟩ := List.nodup_cons.1 hn
          obtain ⟨terms, t1, t2, t3, t4⟩ := ih e (by simpa using he) hn (fun b' hb' => hl b' (by simp [hb'])) (fun y hy => hint y (by simp [hy])) _ hparts
          obtain ⟨i, hi, rfl⟩ := hint x (by simp)
          have hb := hl b (by simp)
          unfold baseSymbolText at hpart
          rw [bindM_eq_some] at hpart
          obtain ⟨v, hv, hpart⟩ := hpart
          obtain ⟨v', hv', -, ve⟩ := baseExpr (E := E) distinct hb
          rw [hv, Option.some.injEq] at hv'
          subst hv'
          have i1 : (Exponent.ofInt i : E) = Exponent.one ↔ i = 1 := by
            constructor
            · intro h; have := congrArg val h; rw [ofInt_val, one_val] at this; exact_mod_cast this
            · rintro rfl; exact canon_ext (ofInt_canon _) one_canon (by rw [ofInt_val, one_val]; norm_num)
          have i0 : (Exponent.ofInt i : E) = Exponent.zero ↔ i = 0 := by
            constructor
            · intro h; have := congrArg val h; rw [ofInt_val, LawfulExponent.zero_val] at this; exact_mod_cast this
            · rintro rfl; exact canon_ext (ofInt_canon _) LawfulExponent.zero_canon (by rw [ofInt_val, LawfulExponent.zero_val]; norm_num)
          -- a printed term for `b`
          have term : ∀ (tu : TableUnit E K) (o : Option E), firstUnitFor tbl v = some tu → i ≠ 0 → (o = none ∧ i = 1 ∨ o = some (Exponent.ofInt i) ∧ i ≠ 1) →
              ∃ U : UnitDef E M, Tearproof defs' ((⟨U, tu.symbol, o⟩ : UnitTerm E M) :: terms) ∧
                (∀ u ∈ (⟨U, tu.symbol, o⟩ : UnitTerm E M) :: terms, ∀ b', b' ∉ b :: l → u.unit.dims.expo b' = 0) ∧
                ∀ k, termsExpo ((⟨U, tu.symbol, o⟩ : UnitTerm E M) :: terms) k = exponentAt (b :: l) (Exponent.ofInt i :: e) k := by
            intro tu o hfu hi0 ho
            obtain ⟨hm, hd⟩ := firstUnitFor_some hfu
            obtain ⟨U, hU, h1, hs, hvec⟩ := hfrom hm
            have hUe : ∀ k, U.dims.expo k = if k = b then 1 else 0 := by
              intro k
              by_cases hk : k ∈ defs.baseDimensions
              · rw [hd, ve] at hvec
                exact (List.map_inj_left.1 hvec k hk).symm
              · rw [hzero U hU k hk, if_neg]
                rintro rfl; exact hk hb
            have hpow : (⟨U, tu.symbol, o⟩ : UnitTerm E M).power = i := by
              unfold UnitTerm.power
              rcases ho with ⟨rfl, rfl⟩ | ⟨rfl, -⟩
              · simp
              · simp [ofInt_val]
            have hrest : ∀ v ∈ terms, v.unit.dims.expo b = 0 := fun v hv => t3 v hv b hbl
            have hsum : ∀ k, termsExpo ((⟨U, tu.symbol, o⟩ : UnitTerm E M) :: terms) k = exponentAt (b :: l) (Exponent.ofInt i :: e) k := by
              intro k
              rw [exponentAt_cons, ofInt_val]
              have := t4 k
              unfold termsExpo at this ⊢
              rw [List.map_cons, List.sum_cons, this, hpow, hUe]
              by_cases hk : b = k
              · subst hk; simp [exponentAt_absent hbl]
              · rw [if_neg (fun h => hk h.symm), if_neg hk]; simp
            refine ⟨U, ⟨⟨hunits U hU, hs, symbols_plain h symbols hU hs, ?_⟩, ⟨b, hbase b hb, ?_, hrest⟩, ?_, t2⟩, ?_, hsum⟩
            · intro y hy
              rcases ho with ⟨rfl, -⟩ | ⟨rfl, h2⟩
              · simp at hy
              · simp at hy; exact ⟨i, hi, h2, hy.symm⟩
            · rw [hpow, hUe]; simpa using hi0
            · intro V hV sv hsv h0 hp hne
              refine ⟨b, hbase b hb, ?_⟩
              rw [(safe U (hunits U hU) V hV h1 _ _ hs hsv h0 hp hne).2 b (hbase b hb) fun k _ => hUe k, hsum, exponentAt_cons, if_pos rfl, ofInt_val]
              intro hc; exact hi0 (by exact_mod_cast hc.symm)
            · intro u hu b' hb'
              simp only [List.mem_cons, not_or] at hb'
              rcases List.mem_cons.1 hu with rfl | hu
              · rw [hUe, if_neg hb'.1]
              · exact t3 u hu b' hb'.2
          split at hpart
          · rename_i h1
            rw [bindM_eq_some] at hpart
            obtain ⟨tu, htu, hpart⟩ := hpart
            rw [pure_eq_some] at hpart
            subst hpart
            have := i1.1 h1
            obtain ⟨U, g1, g2, g3⟩ := term tu none htu (by omega) (.inl ⟨rfl, this⟩)
            exact ⟨_, by simp [UnitTerm.text, t1], g1, g2, g3⟩
          · rename_i h1
            split at hpart
            · rename_i h0
              rw [bindM_eq_some] at hpart
              obtain ⟨tu, htu, hpart⟩ := hpart
              rw [pure_eq_some] at hpart
              subst hpart
              obtain ⟨U, g1, g2, g3⟩ := term tu (some (Exponent.ofInt i)) htu (fun h => h0 (i0.2 h)) (.inr ⟨rfl, fun h => h1 (i1.2 h)⟩)
              exact ⟨_, by simp [UnitTerm.text, t1], g1, g2, g3⟩
            · rename_i h0
              rw [pure_eq_some] at hpart
              subst hpart
              have h0 := i0.1 (not_not.1 h0)
              refine ⟨terms, by simpa using t1, t2, fun u hu b' hb' => t3 u hu b' fun h => hb' (by simp [h]), fun k => ?_⟩
              rw [exponentAt_cons, t4, ofInt_val, h0]
              by_cases hk : b = k
              · subst hk; simp [exponentAt_absent hbl]
              · rw [if_neg hk]
    obtain ⟨terms, t1, t2, -, t4⟩ := main _ d fields distinct (fun _ h => h) integer _ hx
    exact ⟨terms, by rw [t1], t2, t4⟩
end
end Diman
