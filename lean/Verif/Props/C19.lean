import Verif.Props.C18
/-!
# C19 — Distinct base dimensions get distinct fields
-/
set_option linter.unusedSectionVars false
namespace Diman

/-- ASCII letter or digit. -/
def isAsciiAlnum (c : Char) : Bool :=
  decide ('A'.toNat ≤ c.toNat ∧ c.toNat ≤ 'Z'.toNat) || decide ('a'.toNat ≤ c.toNat ∧ c.toNat ≤ 'z'.toNat) ||
    decide ('0'.toNat ≤ c.toNat ∧ c.toNat ≤ '9'.toNat)

/-- UpperCamelCase: starts with an upper-case letter and consists of ASCII letters and digits. -/
def UpperCamel (s : Str) : Prop := (∃ c r, s = c :: r ∧ 'A' ≤ c ∧ c ≤ 'Z') ∧ ∀ c ∈ s, isAsciiAlnum c = true

/-- The upper-case and the lower-case alphabet, letter by letter. -/
def upperAlphabet : Str := "ABCDEFGHIJKLMNOPQRSTUVWXYZ".toList
def lowerAlphabet : Str := "abcdefghijklmnopqrstuvwxyz".toList

theorem isUpper_iff (c : Char) : isUpper c = true ↔ 'A' ≤ c ∧ c ≤ 'Z' := by
  simp only [isUpper, decide_eq_true_eq]
  exact Iff.rfl

/-- What becomes of one character after the first. -/
def snakeChar (c : Char) : Str := if isUpper c then ['_', toLower c] else [c]

theorem toLower_of_not_upper {c : Char} (h : ¬ isUpper c = true) : toLower c = c := by simp [toLower, h]

theorem joinWith_append_singleton (sep : Str) (ws : List Str) (w : Str) (h : ws ≠ []) :
    joinWith sep (ws ++ [w]) = joinWith sep ws ++ sep ++ w := by
  induction ws with
  | nil => exact absurd rfl h
  | cons a ws ih =>
    cases ws with
    | nil => simp [joinWith]
    | cons b ws =>
      have := ih (by simp)
      simp only [List.cons_append, joinWith, List.append_assoc] at this ⊢
      rw [this]

/-- the words found in a reversed string -/
theorem split_ne_nil (acc l : Str) (h : acc ≠ [] ∨ l ≠ []) : splitInclusive isUpper acc l ≠ [] := by
  induction l generalizing acc with
  | nil => cases acc with
    | nil => simp at h
    | cons a acc => simp [splitInclusive]
  | cons c l ih =>
    unfold splitInclusive
    split
    · simp
    · exact ih (c :: acc) (.inl (by simp))

theorem snake_rev (l acc : Str) (c0 : Char) :
    joinWith ['_'] ((splitInclusive isUpper acc (l ++ [c0])).map (fun w => w.reverse.map toLower)).reverse =
      toLower c0 :: l.reverse.flatMap snakeChar ++ acc.map toLower := by
  induction l generalizing acc with
  | nil =>
    simp only [List.nil_append, splitInclusive]
    split
    · simp [joinWith]
    · simp [joinWith]
  | cons c l ih =>
    simp only [List.cons_append, splitInclusive]
    split
    · rename_i hc
      simp only [List.map_cons, List.reverse_cons, List.reverse_append, List.reverse_reverse]
      rw [joinWith_append_singleton]
      · rw [ih []]
        simp [snakeChar, hc]
      · simp only [ne_eq, List.reverse_eq_nil_iff, List.map_eq_nil_iff]
        exact split_ne_nil _ _ (.inr (by simp))
    · rename_i hc
      rw [ih (c :: acc)]
      simp [snakeChar, hc, toLower_of_not_upper hc]

/-- The snake-case name, character by character. -/
theorem toSnakecase_cons (c : Char) (s : Str) : toSnakecase (c :: s) = toLower c :: s.flatMap snakeChar := by
  unfold toSnakecase
  rw [List.reverse_cons, snake_rev]
  simp

theorem upper_lower (i : Fin 26) :
    isUpper (upperAlphabet.getD i.val ' ') = true ∧ toLower (upperAlphabet.getD i.val ' ') = lowerAlphabet.getD i.val ' ' := by
  revert i; decide +kernel

theorem isUpper_mem {c : Char} (h : isUpper c = true) : c ∈ upperAlphabet := by
  simp only [isUpper, decide_eq_true_eq] at h
  have hA : 'A'.toNat = 65 := rfl
  have hZ : 'Z'.toNat = 90 := rfl
  have key : ∀ n < 26, Char.ofNat (n + 65) ∈ upperAlphabet := by decide +kernel
  have := key (c.toNat - 65) (by omega)
  rwa [Nat.sub_add_cancel (by omega), Char.ofNat_toNat] at this

/-- A word of a CamelCase name: the number of its first letter in the alphabet, and its other characters. -/
structure CamelWord where
  letter : Fin 26
  others : Str

/-- The words of a name, written together with upper-case first letters … -/
def camelCase (ws : List CamelWord) : Str := ws.flatMap fun w => upperAlphabet.getD w.letter.val ' ' :: w.others

/-- … and written with lower-case first letters and underscores in between. -/
def snakeCase (ws : List CamelWord) : Str := ['_'].intercalate (ws.map fun w => lowerAlphabet.getD w.letter.val ' ' :: w.others)

theorem snake_others {s : Str} (h : ∀ c ∈ s, c ∉ upperAlphabet) : s.flatMap snakeChar = s := by
  induction s with
  | nil => rfl
  | cons c s ih =>
    have hc : ¬ isUpper c = true := fun hu => h c (by simp) (isUpper_mem hu)
    rw [List.flatMap_cons, ih (fun d hd => h d (by simp [hd]))]
    simp [snakeChar, hc]

/-- **C19.** Which name a field gets: the words of the dimension's CamelCase name, in lower case, with underscores in between. -/
theorem C19_snake_case (ws : List CamelWord) (others : ∀ w ∈ ws, ∀ c ∈ w.others, c ∉ upperAlphabet) :
    toSnakecase (camelCase ws) = snakeCase ws := by
  cases ws with
  | nil => rfl
  | cons w ws =>
    simp only [camelCase, List.flatMap_cons, List.cons_append]
    rw [toSnakecase_cons, (upper_lower w.letter).2, List.flatMap_append, snake_others (others w (by simp))]
    have others' : ∀ w ∈ ws, ∀ c ∈ w.others, c ∉ upperAlphabet := fun v hv => others v (by simp [hv])
    clear others
    simp only [snakeCase, List.map_cons]
    induction ws generalizing w with
    | nil => simp [List.intercalate]
    | cons v ws ih =>
      have := ih v (fun u hu => others' u (by simp [hu]))
      have hu := upper_lower v.letter
      simp only [List.map_cons, List.flatMap_cons, List.cons_append, List.flatMap_append, snakeChar, hu.1, hu.2, if_true,
        snake_others (others' v (by simp))]
      simp only [List.intercalate, List.intersperse_cons_cons, List.flatten_cons] at this ⊢
      rw [← this]
      simp

example : toSnakecase "LuminousIntensity2D".toList = "luminous_intensity2_d".toList :=
  C19_snake_case [⟨11, "uminous".toList⟩, ⟨8, "ntensity2".toList⟩, ⟨3, []⟩] (by decide)

theorem toLower_inj {c d : Char} (hc : isUpper c = true) (hd : isUpper d = true) (h : toLower c = toLower d) : c = d := by
  simp only [toLower, hc, hd, if_true] at h
  simp only [isUpper, decide_eq_true_eq] at hc hd
  have hA : 'A'.toNat = 65 := rfl
  have hZ : 'Z'.toNat = 90 := rfl
  have key : ∀ n < 26, ∀ m < 26, Char.ofNat (n + 65 + 32) = Char.ofNat (m + 65 + 32) → n = m := by decide
  have h2 := key (c.toNat - 65) (by omega) (d.toNat - 65) (by omega)
    (by rw [Nat.sub_add_cancel (by omega), Nat.sub_add_cancel (by omega)]; exact h)
  rw [← Char.ofNat_toNat c, ← Char.ofNat_toNat d]
  congr 1; omega

theorem snakeChars_inj {s t : Str} (hs : ∀ c ∈ s, c ≠ '_') (ht : ∀ c ∈ t, c ≠ '_') (h : s.flatMap snakeChar = t.flatMap snakeChar) :
    s = t := by
  induction s generalizing t with
  | nil =>
    cases t with
    | nil => rfl
    | cons d t => simp only [List.flatMap_nil, List.flatMap_cons, snakeChar] at h; split at h <;> simp at h
  | cons c s ih =>
    cases t with
    | nil => simp only [List.flatMap_nil, List.flatMap_cons, snakeChar] at h; split at h <;> simp at h
    | cons d t =>
      have hs' : ∀ c ∈ s, c ≠ '_' := fun x hx => hs x (by simp [hx])
      have ht' : ∀ c ∈ t, c ≠ '_' := fun x hx => ht x (by simp [hx])
      simp only [List.flatMap_cons, snakeChar] at h
      by_cases hc : isUpper c = true <;> by_cases hd : isUpper d = true <;> simp only [hc, hd, if_true] at h
      · simp only [List.cons_append, List.nil_append, List.cons.injEq, true_and] at h
        rw [toLower_inj hc hd h.1, ih hs' ht' h.2]
      · simp only [List.cons_append, List.nil_append, List.cons.injEq, Bool.false_eq_true, if_false] at h
        exact absurd h.1.symm (ht d (by simp))
      · simp only [List.cons_append, List.nil_append, List.cons.injEq, Bool.false_eq_true, if_false] at h
        exact absurd h.1 (hs c (by simp))
      · simp only [List.cons_append, List.nil_append, List.cons.injEq, Bool.false_eq_true, if_false] at h
        rw [h.1, ih hs' ht' h.2]

theorem UpperCamel.no_underscore {s : Str} (h : UpperCamel s) : ∀ c ∈ s, c ≠ '_' := by
  intro c hc he
  have := h.2 c hc
  rw [he] at this
  revert this; decide

/-- **C19.** Two UpperCamelCase names with the same field name are the same name. -/
theorem C19_injective (a b : Str) (ha : UpperCamel a) (hb : UpperCamel b) (h : toSnakecase a = toSnakecase b) : a = b := by
  have na := ha.no_underscore
  have nb := hb.no_underscore
  obtain ⟨⟨c, r, rfl, hc⟩, _⟩ := ha
  obtain ⟨⟨d, q, rfl, hd⟩, _⟩ := hb
  rw [toSnakecase_cons, toSnakecase_cons, List.cons.injEq] at h
  rw [toLower_inj ((isUpper_iff c).2 hc) ((isUpper_iff d).2 hd) h.1, snakeChars_inj (fun x hx => na x (by simp [hx])) (fun x hx => nb x (by simp [hx])) h.2]

section
variable {E M : Type} [Exponent E] [LawfulExponent E] [FieldOps E] [LawfulFieldOps E] [WrittenExponent E] [MagOps E M]

/-- **C19.** In an accepted unit system whose base dimensions have UpperCamelCase names, the fields of the generated dimension type
are pairwise distinct, one per base dimension statement. -/
theorem C19_fields (factor : Prefix → M) (t : UnresolvedTemplates E M) (defs : Defs E M)
    (accepted : runUnitSystem factor t = some (defs, []))
    (camel : ∀ d ∈ t.dimensions, d.rhs = .base () → UpperCamel d.name) :
    defs.baseDimensions.Nodup ∧
    defs.baseDimensions = (t.dimensions.filterMap fun d => match d.rhs with | .base _ => some (toSnakecase d.name) | .expression _ => none) := by
  obtain ⟨res, h⟩ := accepted_of_run accepted
  have hb := Accepted.baseDims accepted
  have heq : ∀ l : List (DimensionEntry E), baseDimensions l =
      (l.filterMap fun d => match d.rhs with | .base _ => some (toSnakecase d.name) | .expression _ => none) := by
    intro l
    induction l with
    | nil => rfl
    | cons d l ih =>
      unfold baseDimensions at ih ⊢
      cases hr : d.rhs <;> simp [DimensionEntry.isBase, hr, ← ih]
  rw [hb]
  refine ⟨?_, heq _⟩
  have hn : (t.dimensions.map DimensionEntry.name).Nodup := by
    have := h.nodup
    unfold Unresolved.names at this
    exact (List.nodup_append.1 (List.nodup_append.1 this).1).1
  have hd : (UnresolvedTemplates.expand (MagOps.one E) factor t).dimensions = t.dimensions := rfl
  unfold baseDimensions
  rw [hd]
  have hn2 : ((t.dimensions.filter DimensionEntry.isBase).map DimensionEntry.name).Nodup := hn.sublist (List.filter_sublist.map _)
  have hc : ∀ d ∈ t.dimensions.filter DimensionEntry.isBase, UpperCamel d.name := by
    intro d hd
    rw [List.mem_filter] at hd
    refine camel d hd.1 ?_
    have := hd.2
    unfold DimensionEntry.isBase at this
    cases hr : d.rhs with
    | base b => rfl
    | expression e => rw [hr] at this; simp at this
  generalize t.dimensions.filter DimensionEntry.isBase = l at hn2 hc
  induction l with
  | nil => simp
  | cons d l ih =>
    simp only [List.map_cons, List.nodup_cons] at hn2 ⊢
    refine ⟨fun hm => ?_, ih hn2.2 fun x hx => hc x (by simp [hx])⟩
    obtain ⟨x, hx, hxe⟩ := List.mem_map.1 hm
    have := C19_injective _ _ (hc x (by simp [hx])) (hc d (by simp)) hxe
    exact hn2.1 (List.mem_map.2 ⟨x, hx, this⟩)

/-- C18 for systems with UpperCamelCase base dimensions: no assumption on the fields is left. -/
theorem C18_exponents_camel (factor : Prefix → M) (t : UnresolvedTemplates E M) (defs : Defs E M)
    (accepted : runUnitSystem factor t = some (defs, []))
    (literals : (UnresolvedTemplates.expand (MagOps.one E) factor t).LitExponents (WrittenExponent.Ok : E → Prop))
    (camel : ∀ d ∈ t.dimensions, d.rhs = .base () → UpperCamel d.name) :
    ∀ d ∈ defs.allDims, ∃ v : DimVal E, dimensionExpr defs.baseDimensions d = some v ∧
      v.vec = defs.baseDimensions.map d.expo ∧ (∀ k, k ∉ defs.baseDimensions → d.expo k = 0) :=
  C18_exponents factor t defs accepted literals (C19_fields factor t defs accepted camel).1

end

/-- Outside UpperCamelCase the claim is false: these distinct names share a field (the generated code then does not compile). -/
theorem C19_needs_camel_case : toSnakecase (str!"AB") = toSnakecase (str!"A_b") ∧ toSnakecase (str!"length") = toSnakecase (str!"Length") := by
  decide

example : UpperCamel (str!"LuminousIntensity") ∧ UpperCamel (str!"A2B") := by
  refine ⟨⟨⟨_, _, rfl, by decide⟩, by decide⟩, ⟨_, _, rfl, by decide⟩, by decide⟩
example : toSnakecase (str!"LuminousIntensity") = (str!"luminous_intensity") ∧ toSnakecase (str!"AB") = (str!"a_b") := by decide
example : ∀ d ∈ Sample.sample.dimensions, d.rhs = .base () → UpperCamel d.name := by
  intro d hd hr
  simp only [Sample.sample, List.mem_cons, List.not_mem_nil, or_false] at hd
  rcases hd with rfl | rfl | rfl | rfl | rfl | rfl | rfl | rfl | rfl | rfl | rfl
  all_goals exact ⟨⟨_, _, rfl, by decide⟩, by decide⟩
end Diman
