import Verif.Proofs.ReadErrors
/-!
# C75 — errors of deserialising say what is wrong
`deserializeE` is deserialising with its error (`Model/ReadErrors.lean`), `FloatWrong` and `VectorWrong` say what is wrong with a text (`Spec/ReadErrors.lean`).
-/
set_option linter.unusedSectionVars false
namespace Diman

section
variable {E K M : Type} [Exponent E] [LawfulExponent E] [FieldOps E] [LawfulFieldOps E] [WrittenExponent E] [MagOps E M]
  [Prims K M] [TextPrims K M]

/-- Without the messages, deserialising is what C27-C30 are about. -/
theorem C75_same_outcome (defs : Defs E M) (describe : SerdeValue K → Str) (s : Storage) (target : DimVal E) (v : SerdeValue K) :
    (deserializeE M defs describe s target v).map Reading.forget = deserialize M defs s target v := by
  unfold deserializeE deserialize
  cases ht : (unitTable M defs.baseDimensions defs.units : Option (List (TableUnit E K))) with
  | none => cases v <;> simp [deserializeStr, ht]
  | some tbl =>
    have hn : ∀ (x : K) (sh : Str), (visitNumberE defs.baseDimensions.length target x sh).forget =
        if target = DimVal.none defs.baseDimensions.length then .ok [x] else .error := by
      intro x sh; unfold visitNumberE; split <;> rfl
    cases hf : s.isFloat <;> cases v <;>
      simp [deserializeStr, ht, hf, visitStrFloatE_forget, visitStrVectorE_forget, hn, visitInt, visitF64] <;> rfl

/-- **C75, floats.** A text is refused with the error that names the first thing that is wrong with it: no number, a word that is not a unit power (more than one
`^`, an exponent that is no integer, a symbol of no unit), or, if everything can be read, a dimension other than the requested one. -/
theorem C75_float_iff (factor : Prefix → M) (t : UnresolvedTemplates E M) (defs : Defs E M)
    (accepted : runUnitSystem factor t = some (defs, []))
    (literals : (UnresolvedTemplates.expand (MagOps.one E) factor t).LitExponents (WrittenExponent.Ok : E → Prop))
    (describe : SerdeValue K → Str) (s : Storage) (float : s.isFloat = true) (target : DimVal E) (text : Str) (o : Reading E (Raw K))
    (compiled : deserializeE M defs describe s target (.str text) = some o) (noPanic : o ≠ .panic) (e : ReadError E) :
    o = .error e ↔ FloatWrong K defs s.base target text e := by
  obtain ⟨res, h⟩ := accepted_of_run accepted
  unfold deserializeE at compiled
  rw [bindM_eq_some] at compiled
  obtain ⟨tbl, ht, compiled⟩ := compiled
  simp only [float, if_true, pure_eq_some] at compiled
  subst compiled
  unfold visitStrFloatE at noPanic ⊢
  rw [splitWs_trim] at noPanic ⊢
  cases hw : splitWs text with
  | nil =>
    have hw' := splitWs_iff.1 hw
    constructor
    · intro ho; cases ho; exact .blank hw'
    · intro ho
      cases ho with
      | blank => rfl
      | number h1 | units h1 => rw [splitWs_iff.2 h1] at hw; cases hw
  | cons w ws =>
    have hw' := splitWs_iff.1 hw
    rw [hw] at noPanic
    cases hx : (TextPrims.parseF M s.base w : Option K) with
    | none =>
      constructor
      · intro ho
        simp only [hx, Reading.orError, Reading.bind, Reading.error.injEq] at ho
        subst ho
        exact .number hw' hx
      · intro ho
        cases ho with
        | blank h1 => rw [splitWs_iff.2 h1] at hw; cases hw
        | number h1 => rw [splitWs_iff.2 h1] at hw; cases hw; simp [hx, Reading.orError, Reading.bind]
        | units h1 h2 => rw [splitWs_iff.2 h1] at hw; cases hw; rw [hx] at h2; cases h2
    | some x =>
      simp only [hx, Reading.orError, Reading.ok_bind] at noPanic
      simp only [hx, Reading.orError, Reading.ok_bind]
      rw [units_wrong h literals ht (g := fun f => [Prims.mul M s.base x (TextPrims.ofF64 M s.base f)]) rfl noPanic]
      constructor
      · intro hu; exact .units hw' hx (trimmed_trim text) hu
      · intro ho
        cases ho with
        | blank h1 => rw [splitWs_iff.2 h1] at hw; cases hw
        | number h1 h2 => rw [splitWs_iff.2 h1] at hw; cases hw; rw [hx] at h2; cases h2
        | units h1 h2 h3 h4 =>
          rw [splitWs_iff.2 h1] at hw; cases hw
          exact trimmed_eq h3 ▸ h4

theorem parseComponents_ok {t : FloatTy} {dim : Nat} {ws : List Str} :
    (∃ xs : List K, (parseComponents M t dim ws : Reading E (List K)) = .ok xs) ↔ ∀ w ∈ ws, (TextPrims.parseF M t w : Option K) ≠ none := by
  induction ws generalizing dim with
  | nil => simp [parseComponents]
  | cons w ws ih =>
    rw [parseComponents]
    simp only [List.mem_cons, forall_eq_or_imp, ← ih (dim := dim + 1)]
    cases hx : (TextPrims.parseF M t w : Option K) with
    | none => simp [Reading.orError, Reading.bind]
    | some x =>
      simp only [Reading.orError, Reading.bind_ok, Reading.ok.injEq, ne_eq, reduceCtorEq, not_false_eq_true, true_and]
      constructor
      · rintro ⟨xs, _, rfl, ys, h, -⟩; exact ⟨ys, h⟩
      · rintro ⟨ys, h⟩; exact ⟨x :: ys, x, rfl, ys, h, rfl⟩

theorem parseComponents_error {t : FloatTy} {dim : Nat} {ws : List Str} (hne : ∀ w ∈ ws, w ≠ []) {e : ReadError E} :
    (parseComponents M t dim ws : Reading E (List K)) = .error e ↔
    ∃ good bad rest, ws = good ++ bad :: rest ∧ (∀ w ∈ good, (TextPrims.parseF M t w : Option K) ≠ none) ∧
      (TextPrims.parseF M t bad : Option K) = none ∧ e = .component (dim + good.length) (str!"invalid float literal") bad := by
  induction ws generalizing dim with
  | nil => simp [parseComponents]
  | cons w ws ih =>
    rw [parseComponents]
    cases hx : (TextPrims.parseF M t w : Option K) with
    | none =>
      simp only [Reading.orError, Reading.bind]
      have hw : parseFloatCause w = str!"invalid float literal" := by
        unfold parseFloatCause
        rw [if_neg (by simpa using hne w (by simp))]
      rw [hw]
      constructor
      · intro h; injection h with h; exact ⟨[], w, ws, rfl, by simp, hx, h.symm⟩
      · rintro ⟨good, bad, rest, h, hg, hb, rfl⟩
        cases good with
        | nil => simp at h; rw [h.1]; rfl
        | cons g good => simp at h; exact absurd (h.1 ▸ hx) (hg g (by simp))
    | some x =>
      simp only [Reading.orError, Reading.bind_error, Reading.ok.injEq, reduceCtorEq, false_or]
      have ih' := ih (dim := dim + 1) (fun w hw => hne w (by simp [hw]))
      constructor
      · rintro ⟨_, rfl, h | ⟨_, _, h⟩⟩
        · obtain ⟨good, bad, rest, rfl, hg, hb, rfl⟩ := ih'.1 h
          refine ⟨w :: good, bad, rest, rfl, ?_, hb, by simp; omega⟩
          intro v hv
          rcases List.mem_cons.1 hv with rfl | hv
          · rw [hx]; simp
          · exact hg v hv
        · exact h.elim
      · rintro ⟨good, bad, rest, h, hg, hb, rfl⟩
        cases good with
        | nil => simp at h; rw [h.1, hb] at hx; cases hx
        | cons g good =>
          simp at h
          obtain ⟨rfl, rfl⟩ := h
          exact ⟨x, rfl, .inl (ih'.2 ⟨good, bad, rest, rfl, fun v hv => hg v (by simp [hv]), hb, by simp; omega⟩)⟩

theorem visitStrVectorE_cut {n : Nat} {units : List (TableUnit E K)} {s : Storage} {target : DimVal E} {text pre inside post : Str}
    (h : CutAt text pre inside post) : visitStrVectorE M n units s target text =
      if (splitWs inside).length ≠ s.numDims then .error (.count (splitWs inside).length s.numDims)
      else (parseComponents M s.base 0 (splitWs inside)).bind fun array =>
        (readUnitsE M units (DimVal.none n) (Prims.one M .f64) (splitWs post)).bind fun df =>
        ifDimensionsMatchE (trim text) target (array.map (Prims.mul M s.base (TextPrims.ofF64 M s.base df.2))) df.1 := by
  obtain ⟨pre', post', h', e⟩ := cut_trim h
  obtain ⟨h1, h2, h3⟩ := cut_parts h'
  unfold visitStrVectorE
  simp only [h3, h2]
  rw [if_neg, if_neg, e]
  · rw [h1]; simp
  · rw [h'.1]; simp

theorem mem_trim {c : Char} (hc : isWs c = false) (s : Str) : c ∈ trim s ↔ c ∈ s := by
  obtain ⟨a, b, h, ha, hb⟩ := trim_eq s
  conv_rhs => rw [h]
  simp only [List.mem_append]
  constructor
  · intro h; exact .inr (.inl h)
  · rintro (h | h | h)
    · rw [ha c h] at hc; cases hc
    · exact h
    · rw [hb c h] at hc; cases hc

theorem words_ne {s : Str} {ws : List Str} (h : Words s ws) : ∀ w ∈ ws, w ≠ [] := by
  induction h with
  | blank => simp
  | word _ hne _ _ _ ih => simpa using ⟨hne, ih⟩

/-- **C75, vectors.** The same for vectors: a missing bracket, the wrong number of components, the first component that is no number, then the units. -/
theorem C75_vector_iff (factor : Prefix → M) (t : UnresolvedTemplates E M) (defs : Defs E M)
    (accepted : runUnitSystem factor t = some (defs, []))
    (literals : (UnresolvedTemplates.expand (MagOps.one E) factor t).LitExponents (WrittenExponent.Ok : E → Prop))
    (describe : SerdeValue K → Str) (s : Storage) (vector : s.isFloat = false) (target : DimVal E) (text : Str) (o : Reading E (Raw K))
    (compiled : deserializeE M defs describe s target (.str text) = some o) (noPanic : o ≠ .panic) (e : ReadError E) :
    o = .error e ↔ VectorWrong K defs s target text e := by
  obtain ⟨res, h⟩ := accepted_of_run accepted
  unfold deserializeE at compiled
  rw [bindM_eq_some] at compiled
  obtain ⟨tbl, ht, compiled⟩ := compiled
  simp only [vector, Bool.false_eq_true, if_false, pure_eq_some] at compiled
  subst compiled
  -- a text with brackets has one reading
  have mem : ∀ {pre inside post : Str}, text = pre ++ '(' :: (inside ++ ')' :: post) → ')' ∈ text := by rintro _ _ _ rfl; simp
  have clash : ∀ {pre inside post a b : Str}, text = pre ++ '(' :: (inside ++ ')' :: post) → ')' ∉ pre → ')' ∉ inside →
      text = a ++ ')' :: b → ')' ∉ a → '(' ∉ a → False := by
    intro pre inside post a b h1 h2 h3 h4 h5 h6
    have e1 := takeWhile_stop (b := b) h5
    have e2 := takeWhile_stop (c := ')') (a := pre ++ '(' :: inside) (b := post) (by simp [h2, h3])
    rw [List.append_assoc, List.cons_append, ← h1, h4, e1] at e2
    exact h6 (by rw [e2]; simp)
  by_cases hc : ')' ∈ text
  · obtain ⟨a, b, hab, ha⟩ := exists_first hc
    by_cases ho : '(' ∈ a
    · obtain ⟨pre, inside, post, hcut⟩ := cut_of hc (by rw [hab, takeWhile_stop ha]; exact ho)
      rw [visitStrVectorE_cut hcut] at noPanic ⊢
      obtain ⟨c1, c2, c3, c4⟩ := hcut
      have uniq : ∀ {pre' inside' post'}, text = pre' ++ '(' :: (inside' ++ ')' :: post') → '(' ∉ pre' → ')' ∉ pre' → ')' ∉ inside' →
          inside' = inside ∧ post' = post := fun h1 h2 h3 h4 => cut_unique ⟨h1, h2, h3, h4⟩ ⟨c1, c2, c3, c4⟩
      have hin := words_splitWs inside
      have hpost := words_splitWs post
      have wuniq : ∀ {ws}, Words inside ws → ws = splitWs inside := fun h => (splitWs_iff.2 h).symm
      by_cases hlen : (splitWs inside).length = s.numDims
      · rw [if_neg (by simpa using hlen)] at noPanic ⊢
        rw [Reading.bind_error, parseComponents_error (words_ne hin)]
        constructor
        · rintro (⟨good, bad, rest, hs, hg, hb, rfl⟩ | ⟨array, harr, hu⟩)
          · rw [Nat.zero_add]
            exact .component c1 c2 c3 c4 (hs ▸ hin) (hs ▸ hlen) hg hb
          · rw [harr, Reading.ok_bind] at noPanic
            rw [units_wrong h literals ht (g := fun f => array.map (Prims.mul M s.base (TextPrims.ofF64 M s.base f))) rfl noPanic] at hu
            exact .units c1 c2 c3 c4 hin hlen (parseComponents_ok.1 ⟨array, harr⟩) hpost (trimmed_trim text) hu
        · intro hv
          cases hv with
          | noClosing h1 => exact absurd hc h1
          | noOpening h1 h2 h3 => exact (clash c1 c3 c4 h1 h2 h3).elim
          | count h1 h2 h3 h4 h5 h6 =>
            obtain ⟨rfl, rfl⟩ := uniq h1 h2 h3 h4
            exact absurd (wuniq h5 ▸ hlen) h6
          | component h1 h2 h3 h4 h5 h6 h7 h8 =>
            obtain ⟨rfl, rfl⟩ := uniq h1 h2 h3 h4
            exact .inl ⟨_, _, _, (wuniq h5).symm, h7, h8, by rw [Nat.zero_add]⟩
          | units h1 h2 h3 h4 h5 h6 h7 h8 h9 h10 =>
            obtain ⟨rfl, rfl⟩ := uniq h1 h2 h3 h4
            obtain rfl := wuniq h5
            obtain ⟨array, harr⟩ := (parseComponents_ok (E := E) (dim := 0)).2 h7
            refine .inr ⟨array, harr, ?_⟩
            rw [harr, Reading.ok_bind] at noPanic
            rw [units_wrong h literals ht (g := fun f => array.map (Prims.mul M s.base (TextPrims.ofF64 M s.base f))) rfl noPanic, ← trimmed_eq h9,
              splitWs_iff.2 h8]
            exact h10
      · rw [if_pos hlen] at noPanic ⊢
        constructor
        · intro hv; injection hv with hv; subst hv; exact .count c1 c2 c3 c4 hin hlen
        · intro hv
          cases hv with
          | noClosing h1 => exact absurd hc h1
          | noOpening h1 h2 h3 => exact (clash c1 c3 c4 h1 h2 h3).elim
          | count h1 h2 h3 h4 h5 h6 =>
            obtain ⟨rfl, rfl⟩ := uniq h1 h2 h3 h4
            rw [wuniq h5]
          | component h1 h2 h3 h4 h5 h6 =>
            obtain ⟨rfl, rfl⟩ := uniq h1 h2 h3 h4
            exact absurd (wuniq h5 ▸ h6) hlen
          | units h1 h2 h3 h4 h5 h6 =>
            obtain ⟨rfl, rfl⟩ := uniq h1 h2 h3 h4
            exact absurd (wuniq h5 ▸ h6) hlen
    · have hcode : (visitStrVectorE M defs.baseDimensions.length tbl s target text : Reading E (Raw K)) = .error .noOpening := by
        unfold visitStrVectorE
        simp only
        rw [if_neg (by simpa using (mem_trim (by decide) text).2 hc), if_pos]
        intro hx
        have hx' : '(' ∈ (trim text).takeWhile (· ≠ ')') := by simpa using hx
        obtain ⟨pre, inside, post, hcut⟩ := cut_of ((mem_trim (by decide) text).2 hc) hx'
        obtain ⟨pre', post', ⟨h1, h2, h3, h4⟩, -⟩ := cut_untrim hcut
        exact clash h1 h3 h4 hab ha ho
      rw [hcode]
      constructor
      · intro hv; cases hv; exact .noOpening hab ha ho
      · intro hv
        cases hv with
        | noClosing h1 => exact absurd hc h1
        | noOpening => rfl
        | count h1 h2 h3 h4 | component h1 h2 h3 h4 | units h1 h2 h3 h4 => exact (clash h1 h3 h4 hab ha ho).elim
  · have hcode : (visitStrVectorE M defs.baseDimensions.length tbl s target text : Reading E (Raw K)) = .error .noClosing := by
      unfold visitStrVectorE
      simp only
      rw [if_pos]
      intro hx
      exact hc ((mem_trim (by decide) text).1 (by simpa using hx))
    rw [hcode]
    constructor
    · intro hv; cases hv; exact .noClosing hc
    · intro hv
      cases hv with
      | noClosing => rfl
      | noOpening h1 => rw [h1] at hc; simp at hc
      | count h1 | component h1 | units h1 => exact absurd (mem h1) hc
end
end Diman
