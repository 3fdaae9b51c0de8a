import Verif.Spec.ReadErrors
import Verif.Props.C30
/-! The errors of deserialising are the ones of the specification (C75). -/
set_option linter.unusedSectionVars false
namespace Diman

namespace Reading
variable {E α β : Type}
theorem ok_bind (a : α) (f : α → Reading E β) : (Reading.ok a).bind f = f a := rfl
theorem bind_ok {x : Reading E α} {f : α → Reading E β} {b : β} : x.bind f = .ok b ↔ ∃ a, x = .ok a ∧ f a = .ok b := by cases x <;> simp [bind]
theorem bind_error {x : Reading E α} {f : α → Reading E β} {e : ReadError E} :
    x.bind f = .error e ↔ x = .error e ∨ ∃ a, x = .ok a ∧ f a = .error e := by cases x <;> simp [bind]
theorem orError_ok {x : Option α} {e : ReadError E} {a : α} : Reading.orError e x = .ok a ↔ x = some a := by cases x <;> simp [orError]
theorem orError_error {x : Option α} {e e' : ReadError E} : Reading.orError e x = .error e' ↔ x = none ∧ e' = e := by
  cases x <;> simp [orError, eq_comm]
theorem orPanic_ok {x : Option α} {a : α} : (Reading.orPanic x : Reading E α) = .ok a ↔ x = some a := by cases x <;> simp [orPanic]
theorem orPanic_error {x : Option α} {e : ReadError E} : (Reading.orPanic x : Reading E α) ≠ .error e := by cases x <;> simp [orPanic]
theorem forget_ok {x : Reading E α} {a : α} : x.forget = .ok a ↔ x = .ok a := by cases x <;> simp [forget]
theorem forget_panic {x : Reading E α} : x.forget = .panic ↔ x = .panic := by cases x <;> simp [forget]
theorem forget_error {x : Reading E α} : x.forget = .error ↔ ∃ e, x = .error e := by cases x <;> simp [forget]
theorem forget_bind (x : Reading E α) (f : α → Reading E β) : (x.bind f).forget = x.forget.bind fun a => (f a).forget := by cases x <;> rfl
theorem forget_orError (x : Option α) (e : ReadError E) : (Reading.orError e x).forget = Outcome.orError x := by cases x <;> rfl
theorem forget_orPanic (x : Option α) : (Reading.orPanic x : Reading E α).forget = Outcome.orPanic x := by cases x <;> rfl
end Reading

/-! ## Cutting a word -/

theorem splitBy_length (p : Char → Bool) (s : Str) : (splitBy p s).length = s.countP p + 1 := by
  induction s with
  | nil => rfl
  | cons c s ih =>
    simp only [splitBy, List.countP_cons]
    by_cases hc : p c = true
    · simp [hc, ih]
    · rw [if_neg hc]
      have := splitBy_ne_nil p s
      cases hs : splitBy p s with
      | nil => exact absurd hs this
      | cons w ws => rw [hs] at ih; simp at ih; simp [hc, ih]

theorem caret_false {a : Str} (h : '^' ∉ a) : ∀ c ∈ a, decide (c = '^') = false := by
  intro c hc
  simp only [decide_eq_false_iff_not]
  rintro rfl
  exact h hc

theorem countP_caret (s : Str) : s.countP (fun c => decide (c = '^')) = s.count '^' := by
  rw [List.count]; congr 1

section
variable {E K M : Type} [Exponent E] [LawfulExponent E]

theorem cutUnitWordE_forget (w : Str) : (cutUnitWordE w : Reading E _).forget = Outcome.orError (cutUnitWord w) := by
  unfold cutUnitWordE cutUnitWord
  split
  · generalize splitBy (fun c => decide (c = '^')) w = l
    rcases l with _ | ⟨a, _ | ⟨b, _ | ⟨c, l⟩⟩⟩
    · rfl
    · rfl
    · simp only [Reading.forget_bind, Reading.forget_orError]
      cases parseI32 b <;> rfl
    · rfl
  · rfl

theorem cutUnitWordE_ok {w u : Str} {i : Int} : (cutUnitWordE w : Reading E _) = .ok (u, i) ↔ UnitWord w u i := by
  rw [← unitWord_iff, ← Reading.forget_ok, cutUnitWordE_forget, Outcome.orError_ok]

theorem cutUnitWordE_no_panic {w : Str} : (cutUnitWordE w : Reading E _) ≠ .panic := by
  unfold cutUnitWordE
  split
  · split
    · cases parseI32 _ <;> simp [Reading.orError, Reading.bind]
    · simp
  · simp

/-- The errors of cutting a word. -/
theorem cutUnitWordE_error {w : Str} {e : ReadError E} : cutUnitWordE w = .error e ↔
    (2 ≤ w.count '^' ∧ e = .badUnit w) ∨ ∃ u x, w = u ++ '^' :: x ∧ '^' ∉ u ∧ '^' ∉ x ∧ (¬ ∃ i, IntNumeral x i ∧ InI32 i) ∧ e = .exponent x := by
  unfold cutUnitWordE
  by_cases hc : '^' ∈ w
  · rw [if_pos (by simpa using hc)]
    obtain ⟨a, b, rfl, ha⟩ := exists_first hc
    have hs : splitBy (fun c => decide (c = '^')) (a ++ '^' :: b) = a :: splitBy (fun c => decide (c = '^')) b :=
      splitBy_sep (caret_false ha) (by simp) b
    by_cases hb : '^' ∈ b
    · have h2 : 2 ≤ (a ++ '^' :: b).count '^' := by
        rw [List.count_append, List.count_cons_self]
        have := List.count_pos_iff.2 hb
        omega
      have hl := splitBy_length (fun c => decide (c = '^')) b
      rw [countP_caret] at hl
      have hb' := List.count_pos_iff.2 hb
      rw [hs]
      split
      · rename_i u x heq
        injection heq with _ heq
        rw [heq] at hl
        simp at hl
        omega
      · constructor
        · intro h
          injection h with h
          exact .inl ⟨h2, h.symm⟩
        · rintro (⟨-, rfl⟩ | ⟨u, x, h, hu, hx, -⟩)
          · rfl
          · rw [h, List.count_append, List.count_cons_self, List.count_eq_zero_of_not_mem hu, List.count_eq_zero_of_not_mem hx] at h2
            omega
    · have h1 : (a ++ '^' :: b).count '^' = 1 := by
        rw [List.count_append, List.count_cons_self, List.count_eq_zero_of_not_mem ha, List.count_eq_zero_of_not_mem hb]
      rw [hs, splitBy_none (caret_false hb)]
      simp only [Reading.bind_error, Reading.orError_error]
      constructor
      · rintro (⟨h, rfl⟩ | ⟨i, -, h⟩)
        · refine .inr ⟨a, b, rfl, ha, hb, ?_, rfl⟩
          rintro ⟨i, h'⟩
          rw [parseI32_iff.2 h'] at h
          cases h
        · cases h
      · rintro (⟨h, -⟩ | ⟨u, x, h, hu, hx, hn, rfl⟩)
        · omega
        · have : b = x := by
            have e1 := dropWhile_stop (b := b) ha
            rw [h, dropWhile_stop hu] at e1
            injection e1 with _ e1
            exact e1.symm
          subst this
          refine .inl ⟨?_, rfl⟩
          cases hp : parseI32 b with
          | none => rfl
          | some i => exact absurd ⟨i, parseI32_iff.1 hp⟩ hn
  · rw [if_neg (by simpa using hc)]
    constructor
    · intro h; cases h
    · rintro (⟨h, -⟩ | ⟨u, x, rfl, -⟩)
      · rw [List.count_eq_zero_of_not_mem hc] at h; omega
      · exact absurd (by simp) hc

variable [FieldOps E] [LawfulFieldOps E] [WrittenExponent E] [MagOps E M] [Prims K M] [TextPrims K M]

theorem readSingleUnitE_forget (tbl : List (TableUnit E K)) (w : Str) : (readSingleUnitE M tbl w).forget = readSingleUnit M tbl w := by
  unfold readSingleUnitE readSingleUnit
  simp only [Reading.forget_bind, cutUnitWordE_forget, Reading.forget_orError, Reading.forget_orPanic]
  rfl

theorem readUnitsE_forget (tbl : List (TableUnit E K)) (d : DimVal E) (f : K) (ws : List Str) :
    (readUnitsE M tbl d f ws).forget = readUnits M tbl d f ws := by
  induction ws generalizing d f with
  | nil => rfl
  | cons w ws ih => simp only [readUnitsE, readUnits, Reading.forget_bind, readSingleUnitE_forget, Reading.forget_orPanic, ih]

theorem ifDimensionsMatchE_forget (c : Str) (target : DimVal E) (r : Raw K) (d : DimVal E) :
    (ifDimensionsMatchE c target r d).forget = ifDimensionsMatch target r d := by
  unfold ifDimensionsMatchE ifDimensionsMatch
  split <;> rfl

theorem visitStrFloatE_forget (n : Nat) (tbl : List (TableUnit E K)) (t : FloatTy) (target : DimVal E) (value : Str) :
    (visitStrFloatE M n tbl t target value).forget = visitStrFloat M n tbl t target value := by
  unfold visitStrFloatE visitStrFloat
  cases splitWs (trim value) with
  | nil => rfl
  | cons w ws => simp only [Reading.forget_bind, Reading.forget_orError, readUnitsE_forget, ifDimensionsMatchE_forget]

theorem parseComponents_forget (t : FloatTy) (dim : Nat) (ws : List Str) :
    (parseComponents M t dim ws : Reading E (List K)).forget = Outcome.orError (ws.mapM (TextPrims.parseF M t)) := by
  induction ws generalizing dim with
  | nil => rfl
  | cons w ws ih =>
    rw [parseComponents, Reading.forget_bind, Reading.forget_orError]
    simp only [Reading.forget_bind, ih, List.mapM_cons]
    cases (TextPrims.parseF M t w : Option K) with
    | none => rfl
    | some x => cases ws.mapM (TextPrims.parseF M t : Str → Option K) <;> rfl

theorem visitStrVectorE_forget (n : Nat) (tbl : List (TableUnit E K)) (s : Storage) (target : DimVal E) (value : Str) :
    (visitStrVectorE M n tbl s target value).forget = visitStrVector M n tbl s target value := by
  unfold visitStrVectorE visitStrVector
  simp only
  split
  · rfl
  · split
    · rfl
    · split
      · rfl
      · simp only [Reading.forget_bind, parseComponents_forget, readUnitsE_forget, ifDimensionsMatchE_forget]

/-! ## Units -/
section
variable {factor : Prefix → M} {t : UnresolvedTemplates E M} {defs : Defs E M} {res : BMap (ResolvedItem E M)}

theorem bySymbol_none {tbl : List (TableUnit E K)} (ht : unitTable M defs.baseDimensions defs.units = some tbl) {u : Str} :
    unitBySymbol tbl u = none ↔ ∀ U ∈ defs.units, U.symbol ≠ some u := by
  obtain ⟨h1, h2⟩ := unitTable_spec ht
  unfold unitBySymbol
  rw [List.find?_eq_none]
  constructor
  · intro h U hU hs
    obtain ⟨tu, htu, ho⟩ := h2 U hU u hs
    have := h tu htu
    rw [ho.1] at hs
    simp at hs
    simp [hs] at this
  · intro h tu htu
    obtain ⟨U, hU, ho⟩ := h1 tu htu
    have := h U hU
    rw [ho.1] at this
    simpa using this

theorem readSingleUnitE_error {tbl : List (TableUnit E K)} (ht : unitTable M defs.baseDimensions defs.units = some tbl) {w : Str} {e : ReadError E} :
    readSingleUnitE M tbl w = .error e ↔ WordWrong defs w e := by
  unfold readSingleUnitE
  rw [Reading.bind_error, cutUnitWordE_error]
  constructor
  · rintro ((⟨h, rfl⟩ | ⟨u, x, rfl, hu, hx, hn, rfl⟩) | ⟨⟨u, i⟩, h, h'⟩)
    · exact .carets h
    · exact .exponent hu hx hn
    · rw [Reading.bind_error, Reading.orError_error] at h'
      rcases h' with ⟨h', rfl⟩ | ⟨tu, -, h'⟩
      · exact .unknown (cutUnitWordE_ok.1 h) ((bySymbol_none ht).1 h')
      · rw [Reading.bind_error] at h'
        rcases h' with h' | ⟨_, _, h'⟩
        · exact absurd h' Reading.orPanic_error
        · cases h'
  · intro h
    cases h with
    | carets h => exact .inl (.inl ⟨h, rfl⟩)
    | exponent hu hx hn => exact .inl (.inr ⟨_, _, rfl, hu, hx, hn, rfl⟩)
    | unknown h h' =>
      refine .inr ⟨_, cutUnitWordE_ok.2 h, ?_⟩
      rw [Reading.bind_error, Reading.orError_error]
      exact .inl ⟨(bySymbol_none ht).2 h', rfl⟩

theorem readUnitsE_split {tbl : List (TableUnit E K)} {d0 : DimVal E} {f0 : K} {ws : List Str} {e : ReadError E}
    (h : readUnitsE M tbl d0 f0 ws = .error e) :
    ∃ good bad rest us, ws = good ++ bad :: rest ∧ TableWords tbl good us ∧ readSingleUnitE M tbl bad = .error e := by
  induction ws generalizing d0 f0 with
  | nil => cases h
  | cons w ws ih =>
    rw [readUnitsE, Reading.bind_error] at h
    rcases h with h | ⟨r, hr, h⟩
    · exact ⟨[], w, ws, [], rfl, .nil, h⟩
    · rw [Reading.bind_error] at h
      rcases h with h | ⟨d', -, h⟩
      · exact absurd h Reading.orPanic_error
      · obtain ⟨good, bad, rest, us, rfl, g, hb⟩ := ih h
        have hr' : readSingleUnit M tbl w = .ok r := by rw [← readSingleUnitE_forget, hr]; rfl
        obtain ⟨sym, i, tu, k1, k2, -, -⟩ := readSingleUnit_ok.1 hr'
        obtain rfl := (unitBySymbol_some k2).2
        exact ⟨w :: good, bad, rest, (tu, i) :: us, rfl, .cons ⟨k1, k2⟩ g, hb⟩

theorem readUnitsE_join {tbl : List (TableUnit E K)} {good rest : List Str} {bad : Str} {us : List (TableUnit E K × Int)} (hg : TableWords tbl good us)
    {e : ReadError E} (hb : readSingleUnitE M tbl bad = .error e) (d0 : DimVal E) (f0 : K) :
    readUnitsE M tbl d0 f0 (good ++ bad :: rest) = .error e ∨ readUnitsE M tbl d0 f0 (good ++ bad :: rest) = .panic := by
  induction hg generalizing d0 f0 with
  | nil => exact .inl (by rw [List.nil_append, readUnitsE, hb]; rfl)
  | @cons w ue good us h _ ih =>
    rw [List.cons_append, readUnitsE]
    have hne := readSingleUnit_not_error (M := M) h.1 h.2
    cases hr : readSingleUnitE M tbl w with
    | error e' => exact absurd (by rw [← readSingleUnitE_forget, hr]; rfl) hne
    | panic => exact .inr rfl
    | ok r =>
      simp only [Reading.bind]
      cases DimVal.add d0 r.1 with
      | none => exact .inr rfl
      | some d' => exact ih _ _

/-- What reading the units and comparing the dimension reports. -/
theorem units_wrong (h : Accepted (UnresolvedTemplates.expand (MagOps.one E) factor t) defs res)
    (hl : (UnresolvedTemplates.expand (MagOps.one E) factor t).LitExponents (WrittenExponent.Ok : E → Prop)) {tbl : List (TableUnit E K)}
    (ht : unitTable M defs.baseDimensions defs.units = some tbl) {target : DimVal E} {ws : List Str} {c : Str} {g : K → Raw K}
    {o : Reading E (Raw K)} (ho : ((readUnitsE M tbl (DimVal.none defs.baseDimensions.length) (Prims.one M .f64) ws).bind fun df =>
      ifDimensionsMatchE c target (g df.2) df.1) = o) (hp : o ≠ .panic) {e : ReadError E} :
    o = .error e ↔ UnitsWrong defs target c ws e := by
  subst ho
  constructor
  · intro ho
    rcases Reading.bind_error.1 ho with ho | ⟨⟨d, f⟩, hr, ho⟩
    · obtain ⟨good, bad, rest, us, rfl, hg, hb⟩ := readUnitsE_split ho
      obtain ⟨vs, hvs, -⟩ := tableWords_names h ht hg
      exact .word hvs ((readSingleUnitE_error ht).1 hb)
    · have hr' := congrArg Reading.forget hr
      rw [readUnitsE_forget] at hr'
      obtain ⟨vs, g1, g2, g3, -⟩ := (readUnits_spec h hl ht ws).1 d f hr'
      unfold ifDimensionsMatchE at ho
      split at ho
      · cases ho
      · rename_i hne
        injection ho with ho
        subst ho
        exact .dimension g1 g2 g3 hne
  · intro hw
    cases hw with
    | @word good bad rest us' _ hg hb =>
      obtain ⟨us, hus, -⟩ := names_tableWords h ht hg
      rcases readUnitsE_join (M := M) (rest := rest) hus ((readSingleUnitE_error ht).2 hb) (DimVal.none defs.baseDimensions.length)
        (Prims.one M .f64) with hr | hr
      · rw [hr]; rfl
      · rw [hr] at hp; exact absurd rfl hp
    | @dimension _ us given hn hd hc hne =>
      rcases (readUnits_spec h hl ht ws).2 us hn with hr | ⟨d, hr, hc', hd'⟩
      · rw [← readUnitsE_forget, Reading.forget_panic] at hr
        rw [hr] at hp; exact absurd rfl hp
      · rw [← readUnitsE_forget, Reading.forget_ok] at hr
        have : d = given := DimVal.ext hc' hc (hd'.trans hd.symm)
        subst this
        rw [hr]
        simp only [Reading.bind, ifDimensionsMatchE, if_neg hne]
end

/-! ## Trimming -/

theorem dropWhile_head (p : Char → Bool) (s : Str) : ∀ c ∈ (s.dropWhile p).head?, p c = false := by
  intro c hc
  induction s with
  | nil => simp at hc
  | cons x s ih =>
    by_cases hx : p x = true
    · rw [List.dropWhile_cons, if_pos hx] at hc; exact ih hc
    · rw [List.dropWhile_cons, if_neg hx] at hc
      simp at hc; subst hc; simpa using hx

theorem trimmed_trim (s : Str) : Trimmed s (trim s) := by
  refine ⟨s.takeWhile isWs, ((s.dropWhile isWs).reverse.takeWhile isWs).reverse, ?_, fun c hc => List.mem_takeWhile_imp hc,
    fun c hc => List.mem_takeWhile_imp (List.mem_reverse.1 hc), ?_, ?_⟩
  · unfold trim
    rw [← List.reverse_append, List.takeWhile_append_dropWhile, List.reverse_reverse, List.takeWhile_append_dropWhile]
  · unfold trim
    intro c hc
    have h1 := dropWhile_head isWs s
    -- the trimmed text is a prefix of the text without the leading whitespace
    have hpre : ((s.dropWhile isWs).reverse.dropWhile isWs).reverse <+: s.dropWhile isWs := by
      rw [← List.reverse_suffix, List.reverse_reverse]
      exact List.dropWhile_suffix isWs
    obtain ⟨t, ht⟩ := hpre
    cases hx : ((s.dropWhile isWs).reverse.dropWhile isWs).reverse with
    | nil => rw [hx] at hc; simp at hc
    | cons x xs =>
      rw [hx] at hc ht
      apply h1
      rw [← ht]
      simpa using hc
  · unfold trim
    rw [List.getLast?_reverse]
    exact dropWhile_head isWs _

theorem dropWhile_all {p : Char → Bool} {a b : Str} (ha : ∀ c ∈ a, p c = true) (hb : ∀ c ∈ b.head?, p c = false) : (a ++ b).dropWhile p = b := by
  induction a with
  | nil =>
    cases b with
    | nil => rfl
    | cons x b => rw [List.nil_append, List.dropWhile_cons, if_neg (by simp [hb x (by simp)])]
  | cons x a ih => rw [List.cons_append, List.dropWhile_cons, if_pos (ha x (by simp)), ih fun c hc => ha c (by simp [hc])]

theorem trimmed_eq {s core : Str} (h : Trimmed s core) : core = trim s := by
  obtain ⟨a, b, rfl, ha, hb, h1, h2⟩ := h
  unfold trim
  by_cases hc : core = []
  · subst hc
    have e1 : (a ++ ([] ++ b)).dropWhile isWs = [] := by
      rw [List.dropWhile_eq_nil_iff]
      intro c hc
      rcases List.mem_append.1 hc with hc | hc
      · exact ha c hc
      · exact hb c hc
    rw [e1]
    rfl
  · have e1 : (a ++ (core ++ b)).dropWhile isWs = core ++ b := by
      refine dropWhile_all ha ?_
      cases core with
      | nil => exact absurd rfl hc
      | cons x xs => simpa using h1
    rw [e1, List.reverse_append, dropWhile_all (fun c hc => hb c (List.mem_reverse.1 hc)) (by simpa [List.head?_reverse] using h2), List.reverse_reverse]
end
end Diman
