import Verif.Spec.Text
import Mathlib.Tactic
import Mathlib.Data.List.TakeWhile
/-!
# Lemmas about cutting strings into words
-/
namespace Diman

theorem splitBy_ne_nil (p : Char → Bool) (s : Str) : splitBy p s ≠ [] := by
  cases s with
  | nil => simp [splitBy]
  | cons c cs =>
    simp only [splitBy]
    split
    · simp
    · split <;> simp

theorem splitBy_none {p : Char → Bool} {a : Str} (h : ∀ c ∈ a, p c = false) : splitBy p a = [a] := by
  induction a with
  | nil => rfl
  | cons c cs ih =>
    simp only [splitBy]
    rw [if_neg (by simp [h c (by simp)]), ih fun x hx => h x (by simp [hx])]

theorem splitBy_sep {p : Char → Bool} {a : Str} (h : ∀ c ∈ a, p c = false) {c : Char} (hc : p c = true) (b : Str) :
    splitBy p (a ++ c :: b) = a :: splitBy p b := by
  induction a with
  | nil => simp [splitBy, hc]
  | cons x xs ih =>
    rw [List.cons_append]
    simp only [splitBy]
    rw [if_neg (by simp [h x (by simp)]), ih fun y hy => h y (by simp [hy])]

theorem splitWs_space {c : Char} (hc : isWs c = true) (s : Str) : splitWs (c :: s) = splitWs s := by
  unfold splitWs
  have := splitBy_sep (p := isWs) (a := []) (by simp) hc s
  rw [List.nil_append] at this
  rw [this]; simp

theorem splitWs_gap {gap : Str} (h : ∀ c ∈ gap, isWs c = true) (s : Str) : splitWs (gap ++ s) = splitWs s := by
  induction gap with
  | nil => rfl
  | cons c cs ih =>
    rw [List.cons_append, splitWs_space (h c (by simp)), ih fun x hx => h x (by simp [hx])]

theorem splitWs_blank {gap : Str} (h : ∀ c ∈ gap, isWs c = true) : splitWs gap = [] := by
  have := splitWs_gap h []
  rw [List.append_nil] at this
  rw [this]; rfl

theorem splitWs_word {w rest : Str} (hne : w ≠ []) (hw : ∀ c ∈ w, isWs c = false) (hr : ∀ c ∈ rest.head?, isWs c = true) :
    splitWs (w ++ rest) = w :: splitWs rest := by
  cases rest with
  | nil =>
    rw [List.append_nil]
    unfold splitWs
    rw [splitBy_none hw]
    simp [splitBy, hne]
  | cons c cs =>
    have hc : isWs c = true := hr c (by simp)
    rw [splitWs_space hc]
    unfold splitWs
    rw [splitBy_sep hw hc]
    simp [hne]

theorem splitWs_of_words {s : Str} {ws : List Str} (h : Words s ws) : splitWs s = ws := by
  induction h with
  | blank h => exact splitWs_blank h
  | word hg hne hw hr _ ih => rw [splitWs_gap hg, splitWs_word hne hw hr, ih]

theorem words_splitWs (s : Str) : Words s (splitWs s) := by
  generalize hn : s.length = n
  induction n using Nat.strong_induction_on generalizing s with
  | _ n ih =>
    have hgap : ∀ c ∈ s.takeWhile isWs, isWs c = true := fun c hc => List.mem_takeWhile_imp hc
    have hs : s = s.takeWhile isWs ++ s.dropWhile isWs := List.takeWhile_append_dropWhile.symm
    cases h1 : s.dropWhile isWs with
    | nil =>
      rw [h1, List.append_nil] at hs
      have : ∀ c ∈ s, isWs c = true := by rw [hs]; exact hgap
      rw [splitWs_blank this]; exact .blank this
    | cons c cs =>
      have hc : isWs c = false := by
        have := List.head?_dropWhile_not isWs s
        rw [h1] at this
        simpa using this
      have hwt : (c :: cs) = (c :: cs).takeWhile (fun x => !isWs x) ++ (c :: cs).dropWhile (fun x => !isWs x) :=
        List.takeWhile_append_dropWhile.symm
      have hw : ∀ x ∈ (c :: cs).takeWhile (fun x => !isWs x), isWs x = false := fun x hx => by
        simpa using List.mem_takeWhile_imp hx
      have hne : (c :: cs).takeWhile (fun x => !isWs x) ≠ [] := by simp [hc]
      have hr : ∀ x ∈ ((c :: cs).dropWhile (fun x => !isWs x)).head?, isWs x = true := by
        intro x hx
        have := List.head?_dropWhile_not (fun x => !isWs x) (c :: cs)
        rw [Option.mem_def] at hx
        rw [hx] at this
        simpa using this
      rw [h1, hwt] at hs
      have hlen : ((c :: cs).dropWhile (fun x => !isWs x)).length < n := by
        have e1 : s.length = (s.takeWhile isWs).length + (((c :: cs).takeWhile (fun x => !isWs x)).length +
            ((c :: cs).dropWhile (fun x => !isWs x)).length) := by
          conv_lhs => rw [hs]
          simp only [List.length_append]
        have : 0 < ((c :: cs).takeWhile (fun x => !isWs x)).length := List.length_pos_iff.2 hne
        omega
      have := ih _ hlen _ rfl
      have hW := Words.word hgap hne hw hr this
      rw [← hs] at hW
      rw [splitWs_of_words hW]
      exact hW

/-- `split_whitespace` yields exactly the words. -/
theorem splitWs_iff {s : Str} {ws : List Str} : splitWs s = ws ↔ Words s ws :=
  ⟨fun h => h ▸ words_splitWs s, splitWs_of_words⟩

theorem splitWs_trailing {gap : Str} (h : ∀ c ∈ gap, isWs c = true) (s : Str) : splitWs (s ++ gap) = splitWs s := by
  have key : ∀ {s ws}, Words s ws → Words (s ++ gap) ws := by
    intro s ws hw
    induction hw with
    | blank hg => exact .blank fun c hc => (List.mem_append.1 hc).elim (hg c) (h c)
    | @word g w rest ws hg hne hw hr _ ih =>
      rw [List.append_assoc, List.append_assoc]
      refine .word hg hne hw ?_ ih
      intro c hc
      cases rest with
      | nil => cases gap with
        | nil => simp at hc
        | cons x xs => simp at hc; exact h c (by simp [hc])
      | cons x xs => exact hr c (by simpa using hc)
  exact splitWs_of_words (key (words_splitWs s))

theorem trim_eq (s : Str) : ∃ a b, s = a ++ (trim s ++ b) ∧ (∀ c ∈ a, isWs c = true) ∧ (∀ c ∈ b, isWs c = true) := by
  refine ⟨s.takeWhile isWs, ((s.dropWhile isWs).reverse.takeWhile isWs).reverse, ?_, fun c hc => List.mem_takeWhile_imp hc,
    fun c hc => List.mem_takeWhile_imp (List.mem_reverse.1 hc)⟩
  unfold trim
  rw [← List.reverse_append, List.takeWhile_append_dropWhile, List.reverse_reverse, List.takeWhile_append_dropWhile]

theorem splitWs_trim (s : Str) : splitWs (trim s) = splitWs s := by
  obtain ⟨a, b, h, ha, hb⟩ := trim_eq s
  conv_rhs => rw [h]
  rw [splitWs_gap ha, splitWs_trailing hb]

/-! ## Numerals -/

theorem digitVal_digitChar {n : Nat} (h : n < 10) : digitVal (digitChar n) = some n := by
  interval_cases n <;> decide

theorem digitVal_some {c : Char} {n : Nat} (h : digitVal c = some n) : n < 10 ∧ c = digitChar n := by
  unfold digitVal at h
  split at h
  · rename_i hc
    simp only [Option.some.injEq] at h
    have h0 : '0'.toNat = 48 := rfl
    have h9 : '9'.toNat = 57 := rfl
    refine ⟨by omega, ?_⟩
    unfold digitChar
    rw [← h, Nat.add_sub_cancel' hc.1, Char.ofNat_toNat]
  · cases h

theorem parseDigits_iff {s : Str} {acc n : Nat} : parseDigits acc s = some n ↔
    ∃ ds : List Nat, (∀ d ∈ ds, d < 10) ∧ s = ds.map digitChar ∧ n = ds.foldl (fun a d => a * 10 + d) acc := by
  induction s generalizing acc with
  | nil =>
    simp only [parseDigits, Option.some.injEq]
    constructor
    · rintro rfl; exact ⟨[], by simp, rfl, rfl⟩
    · rintro ⟨ds, _, h, rfl⟩
      cases ds with
      | nil => rfl
      | cons d ds => simp at h
  | cons c cs ih =>
    simp only [parseDigits, Option.bind_eq_some_iff]
    constructor
    · rintro ⟨d, hd, h⟩
      obtain ⟨h10, rfl⟩ := digitVal_some hd
      obtain ⟨ds, hds, rfl, rfl⟩ := ih.1 h
      exact ⟨d :: ds, by simpa using ⟨h10, hds⟩, rfl, rfl⟩
    · rintro ⟨ds, hds, h, rfl⟩
      cases ds with
      | nil => simp at h
      | cons d ds =>
        simp only [List.map_cons, List.cons.injEq] at h
        obtain ⟨rfl, rfl⟩ := h
        refine ⟨d, digitVal_digitChar (hds d (by simp)), ih.2 ⟨ds, fun x hx => hds x (by simp [hx]), rfl, rfl⟩⟩

theorem foldl_ofDigits (ds : List Nat) (acc : Nat) :
    ds.foldl (fun a d => a * 10 + d) acc = acc * 10 ^ ds.length + Nat.ofDigits 10 ds.reverse := by
  induction ds generalizing acc with
  | nil => simp
  | cons d ds ih =>
    rw [List.foldl_cons, ih, List.reverse_cons, Nat.ofDigits_append, List.length_cons, List.length_reverse, Nat.ofDigits_singleton, pow_succ]
    ring

theorem digitText_iff {s : Str} {n : Nat} : DigitText s n ↔ s ≠ [] ∧ parseDigits 0 s = some n := by
  rw [parseDigits_iff]
  unfold DigitText
  constructor
  · rintro ⟨ds, hne, h10, rfl, rfl⟩
    exact ⟨by simpa using hne, ds, h10, rfl, by rw [foldl_ofDigits]; simp⟩
  · rintro ⟨hne, ds, h10, rfl, rfl⟩
    exact ⟨ds, by simpa using hne, h10, rfl, by rw [foldl_ofDigits]; simp⟩

theorem digitText_chars {s : Str} {n : Nat} (h : DigitText s n) {c : Char} (hc : c ∈ s) : ∃ d, d < 10 ∧ c = digitChar d := by
  obtain ⟨ds, _, h10, rfl, _⟩ := h
  obtain ⟨d, hd, rfl⟩ := List.mem_map.1 hc
  exact ⟨d, h10 d hd, rfl⟩

theorem digitChar_props {d : Nat} (h : d < 10) : isWs (digitChar d) = false ∧ digitChar d ∉ reservedChars ∧ digitChar d ≠ '+' ∧
    digitChar d ≠ '-' ∧ digitChar d ≠ '/' := by
  interval_cases d <;> decide

theorem not_digitText_cons {c : Char} {cs : Str} {n : Nat} (hc : c = '+' ∨ c = '-') : ¬ DigitText (c :: cs) n := by
  intro h
  obtain ⟨d, hd, he⟩ := digitText_chars h (List.mem_cons_self)
  have := digitChar_props hd
  rw [← he] at this
  rcases hc with rfl | rfl <;> simp at this

/-- core's `parse::<i32>` accepts exactly the integer numerals in range. -/
theorem parseI32_iff {s : Str} {i : Int} : parseI32 s = some i ↔ IntNumeral s i ∧ InI32 i := by
  have main : ∀ (neg : Bool) (cs : Str), ((if cs.isEmpty then none else (parseDigits 0 cs).bind fun n =>
      if InI32 (if neg then -(n : Int) else n) then some (if neg then -(n : Int) else (n : Int)) else none) = some i) ↔
      (∃ n, DigitText cs n ∧ i = if neg then -(n : Int) else n) ∧ InI32 i := by
    intro neg cs
    by_cases hc : cs = []
    · subst hc
      simp only [List.isEmpty_nil, if_true]
      constructor
      · intro h; cases h
      · rintro ⟨⟨n, h, _⟩, _⟩
        exact absurd rfl (digitText_iff.1 h).1
    · rw [if_neg (by simpa using hc)]
      constructor
      · intro h
        obtain ⟨n, hn, h⟩ := Option.bind_eq_some_iff.1 h
        generalize hv : (if neg = true then -(n : Int) else (n : Int)) = v at h
        split at h
        · rename_i hr
          have h := Option.some.inj h
          rw [← h]
          exact ⟨⟨n, digitText_iff.2 ⟨hc, hn⟩, hv.symm⟩, hr⟩
        · cases h
      · rintro ⟨⟨n, hn, rfl⟩, hr⟩
        rw [(digitText_iff.1 hn).2]
        rw [Option.bind_some, if_pos hr]
  unfold parseI32 IntNumeral
  by_cases h1 : ∃ cs, s = '-' :: cs
  · obtain ⟨cs, rfl⟩ := h1
    refine (main true cs).trans ?_
    constructor
    · rintro ⟨⟨n, h, rfl⟩, hr⟩
      exact ⟨⟨n, .inr (.inr ⟨cs, rfl, h, rfl⟩)⟩, hr⟩
    · rintro ⟨⟨n, ⟨h, _⟩ | ⟨cs', h, _⟩ | ⟨cs', h, h2, rfl⟩⟩, hr⟩
      · exact absurd h (not_digitText_cons (.inr rfl))
      · injection h with h; exact absurd h (by decide)
      · simp only [List.cons.injEq, true_and] at h
        subst h
        exact ⟨⟨n, h2, rfl⟩, hr⟩
  · by_cases h2 : ∃ cs, s = '+' :: cs
    · obtain ⟨cs, rfl⟩ := h2
      refine (main false cs).trans ?_
      constructor
      · rintro ⟨⟨n, h, rfl⟩, hr⟩
        exact ⟨⟨n, .inr (.inl ⟨cs, rfl, h, rfl⟩)⟩, hr⟩
      · rintro ⟨⟨n, ⟨h, _⟩ | ⟨cs', h, h2, rfl⟩ | ⟨cs', h, _⟩⟩, hr⟩
        · exact absurd h (not_digitText_cons (.inl rfl))
        · simp only [List.cons.injEq, true_and] at h
          subst h
          exact ⟨⟨n, h2, rfl⟩, hr⟩
        · injection h with h; exact absurd h (by decide)
    · have hsame : splitSign s = (false, s) := by
        cases s with
        | nil => rfl
        | cons c cs =>
          simp only [splitSign]
          rw [if_neg (fun h => h1 ⟨cs, by rw [h]⟩), if_neg (fun h => h2 ⟨cs, by rw [h]⟩)]
      rw [hsame]
      refine (main false s).trans ?_
      constructor
      · rintro ⟨⟨n, h, rfl⟩, hr⟩
        exact ⟨⟨n, .inl ⟨h, rfl⟩⟩, hr⟩
      · rintro ⟨⟨n, ⟨h, rfl⟩ | ⟨cs', h, _⟩ | ⟨cs', h, _⟩⟩, hr⟩
        · exact ⟨⟨n, h, rfl⟩, hr⟩
        · exact absurd ⟨cs', h⟩ h2
        · exact absurd ⟨cs', h⟩ h1

theorem showNat_text (n : Nat) : DigitText (showNat n) n := by
  induction n using Nat.strong_induction_on with
  | _ n ih =>
    unfold showNat
    split
    · rename_i h
      exact ⟨[n], by simp, by simpa using h, rfl, by simp⟩
    · rename_i h
      obtain ⟨ds, hne, h10, hs, hv⟩ := ih (n / 10) (by omega)
      refine ⟨ds ++ [n % 10], by simp, ?_, by rw [hs]; simp, ?_⟩
      · intro d hd
        rcases List.mem_append.1 hd with hd | hd
        · exact h10 d hd
        · simp at hd; omega
      · rw [List.reverse_append, List.reverse_singleton, Nat.ofDigits_append, ← hv]
        simp
        omega

theorem showInt_numeral (i : Int) : IntNumeral (showInt i) i := by
  unfold showInt
  split
  · exact ⟨i.natAbs, .inr (.inr ⟨_, rfl, showNat_text _, by omega⟩)⟩
  · exact ⟨i.natAbs, .inl ⟨showNat_text _, by omega⟩⟩

theorem showInt_chars {i : Int} {c : Char} (hc : c ∈ showInt i) : isWs c = false ∧ c ∉ reservedChars ∧ c ≠ '/' := by
  have h1 : ∀ n c, c ∈ showNat n → isWs c = false ∧ c ∉ reservedChars ∧ c ≠ '/' := by
    intro n c hc
    obtain ⟨d, hd, rfl⟩ := digitText_chars (showNat_text n) hc
    exact ⟨(digitChar_props hd).1, (digitChar_props hd).2.1, (digitChar_props hd).2.2.2.2⟩
  unfold showInt at hc
  split at hc
  · rcases List.mem_cons.1 hc with rfl | hc
    · decide
    · exact h1 _ _ hc
  · exact h1 _ _ hc

theorem parseI32_showInt {i : Int} (h : InI32 i) : parseI32 (showInt i) = some i := parseI32_iff.2 ⟨showInt_numeral i, h⟩

theorem intNumeral_no_caret {s : Str} {i : Int} (h : IntNumeral s i) : '^' ∉ s := by
  have key : ∀ {cs n}, DigitText cs n → '^' ∉ cs := by
    intro cs n h hc
    obtain ⟨d, hd, he⟩ := digitText_chars h hc
    have := (digitChar_props hd).2.1
    rw [← he] at this
    exact this (by decide)
  obtain ⟨n, ⟨h, _⟩ | ⟨cs, rfl, h, _⟩ | ⟨cs, rfl, h, _⟩⟩ := h
  · exact key h
  · simpa using key h
  · simpa using key h

/-- How `read_single_unit_str` cuts a word. -/
theorem unitWord_iff {w sym : Str} {e : Int} : cutUnitWord w = some (sym, e) ↔ UnitWord w sym e := by
  have hp : ∀ a : Str, '^' ∉ a → ∀ c ∈ a, (decide (c = '^')) = false := by
    intro a h c hc
    simp only [decide_eq_false_iff_not]
    rintro rfl; exact h hc
  unfold UnitWord cutUnitWord
  by_cases hc : '^' ∈ w
  · rw [if_pos (by simpa using hc)]
    constructor
    · intro h
      right
      obtain ⟨a, b, hab, ha⟩ := List.append_of_mem hc |>.elim fun _ h => h.elim fun _ _ => by
        exact (show ∃ a b, w = a ++ '^' :: b ∧ '^' ∉ a from by
          have := List.eq_append_cons_of_mem hc
          obtain ⟨a, b, h1, h2⟩ := this
          exact ⟨a, b, h1, h2⟩)
      subst hab
      rw [splitBy_sep (hp a ha) (by simp)] at h
      by_cases hb : '^' ∈ b
      · exfalso
        obtain ⟨a', b', h1, h2⟩ := List.eq_append_cons_of_mem hb
        subst h1
        rw [splitBy_sep (hp a' h2) (by simp)] at h
        cases hsb : splitBy (fun x => decide (x = '^')) b' with
        | nil => exact splitBy_ne_nil _ _ hsb
        | cons x xs => rw [hsb] at h; cases h
      · rw [splitBy_none (hp b hb)] at h
        simp only [Option.map_eq_some_iff, Prod.mk.injEq] at h
        obtain ⟨i, hi, rfl, rfl⟩ := h
        obtain ⟨h1, h2⟩ := parseI32_iff.1 hi
        exact ⟨b, rfl, ha, h1, h2⟩
    · rintro (⟨h, _⟩ | ⟨t, rfl, hs, hn, hr⟩)
      · exact absurd hc h
      · rw [splitBy_sep (hp sym hs) (by simp), splitBy_none (hp t (intNumeral_no_caret hn))]
        simp only [parseI32_iff.2 ⟨hn, hr⟩, Option.map_some]
  · rw [if_neg (by simpa using hc)]
    simp only [Option.some.injEq, Prod.mk.injEq]
    constructor
    · rintro ⟨rfl, rfl⟩; exact .inl ⟨hc, rfl, rfl⟩
    · rintro (⟨_, rfl, rfl⟩ | ⟨t, rfl, _⟩)
      · exact ⟨rfl, rfl⟩
      · simp at hc

end Diman
