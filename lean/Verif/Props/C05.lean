import Verif.Proofs.Parse
/-!
# C05 The expression parser accepts exactly the documented grammar
-/
set_option linter.unusedSectionVars false
namespace Diman
section
variable {T : Type} {atom : List Tok → Parsed T} {A : T → List Tok → Prop} {rational : Bool}

theorem atEnd_iff {ts : List Tok} : atEnd ts = true ↔ ts = [] ∨ ∃ l, ts = .punct ';' :: l := by
  unfold atEnd
  split <;> simp_all

theorem parseExprTop_iff (hA : AtomParser atom A) {ts rest : List Tok} {e : Expr T ExpSyn} :
    parseExprTop atom rational ts = some (e, rest) ↔
      ∃ pre, WrittenExpr A rational e pre ∧ ts = pre ++ rest ∧ (rest = [] ∨ ∃ l, rest = .punct ';' :: l) := by
  constructor
  · intro h
    obtain ⟨pre, h1, h2, h3⟩ := (parse_sound hA _).2.2 _ _ _ h
    exact ⟨pre, h1, h2, atEnd_iff.1 h3⟩
  · rintro ⟨pre, h1, rfl, h3⟩
    have h3 := atEnd_iff.2 h3
    unfold parseExprTop
    have hs := ops_lt hA e pre h1
    have ha := toksSize_append pre rest
    rw [parseExpr_complete hA e pre rest _ h1 (.of_atEnd h3) (by omega)]
    obtain ⟨k, hk⟩ : ∃ k, 2 * toksSize (pre ++ rest) + 1 - e.ops = k + 1 := ⟨2 * toksSize (pre ++ rest) - e.ops, by omega⟩
    rw [hk]
    simp [parseLoop, h3]

mutual
theorem factorSentence_of_written : ∀ (f : Factor T ExpSyn) (ts : List Tok), WrittenFactor A rational f ts →
    FactorSentence (fun l => ∃ a, A a l) rational ts
  | .value a, ts, h => .atom ⟨a, by simpa only [WrittenFactor] using h⟩
  | .power a x, ts, h => by
    simp only [WrittenFactor] at h
    obtain ⟨ta, tx, h1, h2, rfl⟩ := h
    exact .power x ⟨a, h1⟩ h2
  | .paren e, ts, h => by
    simp only [WrittenFactor] at h
    obtain ⟨c, h1, rfl⟩ := h
    exact .paren (exprSentence_of_written e c h1)
theorem exprSentence_of_written : ∀ (e : Expr T ExpSyn) (ts : List Tok), WrittenExpr A rational e ts →
    ExprSentence (fun l => ∃ a, A a l) rational ts
  | .value f, ts, h => .factor (factorSentence_of_written f ts (by simpa only [WrittenExpr] using h))
  | .binary l o r, ts, h => by
    simp only [WrittenExpr] at h
    obtain ⟨tl, tp, tr, h1, h2, h3, rfl⟩ := h
    have i1 := exprSentence_of_written l tl h1
    have i2 := factorSentence_of_written r tr h2
    rcases h3 with ⟨-, rfl⟩ | ⟨-, rfl⟩ | ⟨-, rfl, x, l', rfl⟩
    · simpa using ExprSentence.mul i1 i2
    · simpa using ExprSentence.div i1 i2
    · simpa using ExprSentence.juxtapose i1 i2
end

theorem written_of_exprSentence {ts : List Tok} (h : ExprSentence (fun l => ∃ a, A a l) rational ts) :
    ∃ e, WrittenExpr A rational e ts := by
  refine ExprSentence.rec (motive_1 := fun ts _ => ∃ f, WrittenFactor A rational f ts)
    (motive_2 := fun ts _ => ∃ e, WrittenExpr A rational e ts) ?_ ?_ ?_ ?_ ?_ ?_ ?_ h
  · rintro ts ⟨a, h⟩
    exact ⟨.value a, by simpa only [WrittenFactor] using h⟩
  · rintro ta tx x ⟨a, h⟩ hx
    exact ⟨.power a x, by simp only [WrittenFactor]; exact ⟨_, _, h, hx, rfl⟩⟩
  · rintro c _ ⟨e, h⟩
    exact ⟨.paren e, by simp only [WrittenFactor]; exact ⟨_, h, rfl⟩⟩
  · rintro ts _ ⟨f, h⟩
    exact ⟨.value f, by simpa only [WrittenExpr] using h⟩
  · rintro l r _ _ ⟨l', hl⟩ ⟨r', hr⟩
    exact ⟨.binary l' .mul r', by simp only [WrittenExpr]; exact ⟨_, _, _, hl, hr, .inl ⟨rfl, rfl⟩, by simp⟩⟩
  · rintro l r _ _ ⟨l', hl⟩ ⟨r', hr⟩
    exact ⟨.binary l' .div r', by simp only [WrittenExpr]; exact ⟨_, _, _, hl, hr, .inr (.inl ⟨rfl, rfl⟩), by simp⟩⟩
  · rintro l x r _ _ ⟨l', hl⟩ ⟨r', hr⟩
    exact ⟨.binary l' .mul r', by
      simp only [WrittenExpr]; exact ⟨_, _, _, hl, hr, .inr (.inr ⟨rfl, rfl, _, _, rfl⟩), by simp⟩⟩

theorem exprSentence_iff {ts : List Tok} : ExprSentence (fun l => ∃ a, A a l) rational ts ↔ ∃ e, WrittenExpr A rational e ts :=
  ⟨written_of_exprSentence, fun ⟨e, h⟩ => exprSentence_of_written e ts h⟩
end

/-- **C05.** The expression of a unit or constant is read as `e`, leaving `rest`, exactly when the tokens before `rest` are a way of
writing `e` and `rest` is empty or begins with `;`. For all token sequences, of any length and nesting. -/
theorem C05_iff (rational : Bool) (ts rest : List Tok) (e : Expr (Atom Number) ExpSyn) :
    parseExprTop parseMagnitudeAtom rational ts = some (e, rest) ↔
      ∃ pre, WrittenExpr WrittenAtom rational e pre ∧ ts = pre ++ rest ∧ (rest = [] ∨ ∃ l, rest = .punct ';' :: l) :=
  parseExprTop_iff parseMagnitudeAtom_spec

/-- **C05.** The same for dimension definitions. -/
theorem C05_dimension_iff (rational : Bool) (ts rest : List Tok) (e : Expr (Atom Unit) ExpSyn) :
    parseExprTop parseDimensionAtom rational ts = some (e, rest) ↔
      ∃ pre, WrittenExpr WrittenDimensionAtom rational e pre ∧ ts = pre ++ rest ∧ (rest = [] ∨ ∃ l, rest = .punct ';' :: l) :=
  parseExprTop_iff parseDimensionAtom_spec

/-- **C05.** Acceptance depends only on the grammar over tokens: a right-hand side (the whole input) is accepted if and only if it is a
sentence `factor ((* | / | juxtaposed identifier) factor)*`. -/
theorem C05_language (rational : Bool) (ts : List Tok) :
    ((∃ e, parseExprTop parseMagnitudeAtom rational ts = some (e, [])) ↔ ExprSentence (fun l => ∃ a, WrittenAtom a l) rational ts) ∧
    ((∃ e, parseExprTop parseDimensionAtom rational ts = some (e, [])) ↔
      ExprSentence (fun l => ∃ a, WrittenDimensionAtom a l) rational ts) := by
  constructor <;> rw [exprSentence_iff]
  · simp [C05_iff]
  · simp [C05_dimension_iff]

/-- **C05.** A token sequence is the writing of at most one expression. -/
theorem C05_unique (rational : Bool) (ts : List Tok) (e e' : Expr (Atom Number) ExpSyn) (h : WrittenExpr WrittenAtom rational e ts)
    (h' : WrittenExpr WrittenAtom rational e' ts) : e = e' := by
  have h1 := (C05_iff rational ts [] e).2 ⟨ts, h, by simp, .inl rfl⟩
  have h2 := (C05_iff rational ts [] e').2 ⟨ts, h', by simp, .inl rfl⟩
  rw [h1] at h2
  cases h2
  rfl

/-- **C05.** A sentence of the grammar does not extend to a longer one: the expression ends where the first `;` outside parentheses is,
so what is left over is the same whatever the reading. -/
theorem C05_unique_prefix (rational : Bool) (p r p' r' : List Tok) (e e' : Expr (Atom Number) ExpSyn)
    (hts : p ++ r = p' ++ r') (hr : r = [] ∨ ∃ l, r = .punct ';' :: l) (hr' : r' = [] ∨ ∃ l, r' = .punct ';' :: l)
    (h : WrittenExpr WrittenAtom rational e p) (h' : WrittenExpr WrittenAtom rational e' p') : p = p' ∧ r = r' ∧ e = e' := by
  have h1 := (C05_iff rational _ r e).2 ⟨p, h, rfl, hr⟩
  have h2 := (C05_iff rational _ r' e').2 ⟨p', h', rfl, hr'⟩
  rw [hts, h2] at h1
  cases h1
  exact ⟨List.append_cancel_right hts, rfl, rfl⟩

/-- `1 / 2 m (s^2 * kg)`… is a sentence; `m 2`, `m *`, `(m)^2`, `m + s`, and nothing at all, are not. -/
example :
    ExprSentence (fun l => ∃ a, WrittenAtom a l) false
      [.int 1, .punct '/', .int 2, .ident (str!"m"), .punct '*',
        .group .paren [.ident (str!"s"), .punct '^', .punct '-', .int 2, .ident (str!"kg")]] ∧
    ¬ExprSentence (fun l => ∃ a, WrittenAtom a l) false [.ident (str!"m"), .int 2] ∧
    ¬ExprSentence (fun l => ∃ a, WrittenAtom a l) false [.ident (str!"m"), .punct '*'] ∧
    ¬ExprSentence (fun l => ∃ a, WrittenAtom a l) false [.group .paren [.ident (str!"m")], .punct '^', .int 2] ∧
    ¬ExprSentence (fun l => ∃ a, WrittenAtom a l) false [.ident (str!"m"), .punct '+', .ident (str!"s")] ∧
    ¬ExprSentence (fun l => ∃ a, WrittenAtom a l) false [] := by
  have no : ∀ ts, (parseExprTop parseMagnitudeAtom false ts).isSome = false →
      ¬ExprSentence (fun l => ∃ a, WrittenAtom a l) false ts := by
    intro ts hn h
    obtain ⟨e, h⟩ := ((C05_language false ts).1).2 h
    rw [h] at hn
    cases hn
  refine ⟨((C05_language false _).1).1 ⟨.binary (.binary (.binary (.value (.value (.concrete (.int 1)))) .div
      (.value (.concrete (.int 2)))) .mul (.value (.other (str!"m")))) .mul
    (.paren (.binary (.value (.power (.other (str!"s")) ⟨-2, none⟩)) .mul (.value (.other (str!"kg"))))), by rfl⟩,
    no _ (by decide +kernel), no _ (by decide +kernel), no _ (by decide +kernel), no _ (by decide +kernel), no _ (by decide +kernel)⟩

end Diman
