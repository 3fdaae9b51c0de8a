import Verif.Spec.Grammar
/-! The expression parser accepts exactly the written expressions. -/
set_option linter.unusedSectionVars false
namespace Diman

theorem i64_eq_some' {v w : Int} : i64 v = some w ↔ v = w ∧ -2 ^ 63 ≤ w ∧ w < 2 ^ 63 := by
  unfold i64 i64Min i64Max
  constructor
  · intro h
    split at h
    · rename_i hr
      cases h
      exact ⟨rfl, by norm_num; omega, by norm_num; omega⟩
    · cases h
  · rintro ⟨rfl, h1, h2⟩
    norm_num at h1 h2
    rw [if_pos ⟨by omega, by omega⟩]

theorem isIdent_iff {s : Str} : IsIdent s ↔ s ∉ rustKeywords := by
  have h1 : ∀ k ∈ reservedWords, k ∈ rustKeywords := by decide +kernel
  have h2 : ∀ k ∈ rustKeywords, k ∈ reservedWords := by decide +kernel
  exact not_congr ⟨h1 s, h2 s⟩

theorem parseIdent_iff {ts rest : List Tok} {x : Str} : parseIdent ts = some (x, rest) ↔ IsIdent x ∧ ts = .ident x :: rest := by
  rw [isIdent_iff]
  unfold parseIdent
  constructor
  · intro h
    split at h
    · split at h
      · cases h
      · cases h
        rename_i hk
        exact ⟨by simpa using hk, rfl⟩
    · cases h
  · rintro ⟨h, rfl⟩
    simp [h]

theorem parseInt_sound {ts rest : List Tok} {n : Int} (h : parseInt ts = some (n, rest)) : ∃ pre, WrittenInt n pre ∧ ts = pre ++ rest := by
  unfold parseInt at h
  cases hl : parseLit ts with
  | none => simp [hl] at h
  | some p =>
    obtain ⟨l, r⟩ := p
    simp only [hl, Option.bind_eq_bind, Option.bind_some] at h
    cases l with
    | float => cases h
    | other => cases h
    | int v =>
      simp only [Option.map_eq_some_iff, Prod.mk.injEq] at h
      obtain ⟨w, hw, rfl, rfl⟩ := h
      obtain ⟨rfl, h1, h2⟩ := i64_eq_some'.1 hw
      unfold parseLit at hl
      split at hl <;> simp_all
      · obtain ⟨rfl, rfl⟩ := hl
        exact ⟨[_], ⟨h1, h2, _, .inl ⟨rfl, rfl⟩⟩, rfl⟩
      · obtain ⟨rfl, rfl, rfl⟩ := hl
        exact ⟨[_, _], ⟨h1, h2, _, .inr ⟨rfl, rfl⟩⟩, rfl⟩

theorem parseInt_complete {pre : List Tok} {n : Int} (h : WrittenInt n pre) (rest : List Tok) : parseInt (pre ++ rest) = some (n, rest) := by
  obtain ⟨h1, h2, v, ⟨rfl, rfl⟩ | ⟨rfl, rfl⟩⟩ := h
  · simp [parseInt, parseLit, i64_eq_some'.2 ⟨rfl, h1, h2⟩]
  · simp [parseInt, parseLit, i64_eq_some'.2 ⟨rfl, h1, h2⟩]

theorem parseNumber_sound {ts rest : List Tok} {n : Number} (h : parseNumber ts = some (n, rest)) :
    ∃ pre, WrittenNumber n pre ∧ ts = pre ++ rest := by
  cases n with
  | int v =>
    have : parseInt ts = some (v, rest) := by
      unfold parseNumber at h
      unfold parseInt
      cases hl : parseLit ts with
      | none => simp [hl] at h
      | some p =>
        obtain ⟨l, r⟩ := p
        simp only [hl, Option.bind_eq_bind, Option.bind_some] at h ⊢
        cases l <;> simp_all
    exact parseInt_sound this
  | float neg m e =>
    unfold parseNumber at h
    cases hl : parseLit ts with
    | none => simp [hl] at h
    | some p =>
      obtain ⟨l, r⟩ := p
      simp only [hl, Option.bind_eq_bind, Option.bind_some] at h
      cases l with
      | int => simp [Option.map_eq_some_iff] at h
      | other => cases h
      | float neg' m' e' =>
        simp only [Option.some.injEq, Prod.mk.injEq, Number.float.injEq] at h
        obtain ⟨⟨rfl, rfl, rfl⟩, rfl⟩ := h
        unfold parseLit at hl
        split at hl <;> simp_all
        · obtain ⟨⟨rfl, rfl, rfl⟩, rfl⟩ := hl
          exact ⟨[_], rfl, rfl⟩
        · obtain ⟨rfl, ⟨rfl, rfl, rfl⟩, rfl⟩ := hl
          exact ⟨[_, _], rfl, rfl⟩

theorem parseNumber_complete {pre : List Tok} {n : Number} (h : WrittenNumber n pre) (rest : List Tok) :
    parseNumber (pre ++ rest) = some (n, rest) := by
  cases n with
  | int v =>
    obtain ⟨h1, h2, v, ⟨rfl, rfl⟩ | ⟨rfl, rfl⟩⟩ := h
    · simp [parseNumber, parseLit, i64_eq_some'.2 ⟨rfl, h1, h2⟩]
    · simp [parseNumber, parseLit, i64_eq_some'.2 ⟨rfl, h1, h2⟩]
  | float neg m e =>
    cases neg <;> (subst h; simp [parseNumber, parseLit])

/-- Numbers begin with a literal or a minus sign, so they are seen as literals. -/
theorem written_peekLit {pre : List Tok} {n : Number} (h : WrittenNumber n pre) (rest : List Tok) :
    peekLit (pre ++ rest) = true ∧ peekIdent (pre ++ rest) = false ∧ ∀ d c l, pre ++ rest ≠ .group d c :: l := by
  cases n with
  | int v =>
    obtain ⟨-, -, v, ⟨rfl, rfl⟩ | ⟨rfl, rfl⟩⟩ := h <;> simp [peekLit, parseLit, peekIdent, parseIdent]
  | float neg m e =>
    cases neg <;> (subst h; simp [peekLit, parseLit, peekIdent, parseIdent])

theorem writtenInt_peekLit {pre : List Tok} {n : Int} (h : WrittenInt n pre) (rest : List Tok) : peekLit (pre ++ rest) = true :=
  (written_peekLit (n := .int n) h rest).1

theorem true_keyword : (str!"true") ∈ rustKeywords ∧ (str!"false") ∈ rustKeywords := by decide

theorem ident_not_lit {x : Str} (h : IsIdent x) (rest : List Tok) : peekLit (.ident x :: rest) = false := by
  have h1 : x ≠ str!"true" := fun hx => isIdent_iff.1 h (hx ▸ true_keyword.1)
  have h2 : x ≠ str!"false" := fun hx => isIdent_iff.1 h (hx ▸ true_keyword.2)
  simp [peekLit, parseLit, h1, h2]

theorem not_writtenNumber_ident {n : Number} {x : Str} {l : List Tok} : ¬WrittenNumber n (.ident x :: l) := by
  intro h
  cases n with
  | int v => obtain ⟨-, -, v, ⟨-, h⟩ | ⟨-, h⟩⟩ := h <;> cases h
  | float neg m e => cases neg <;> cases h

/-- An atom parser reads exactly the written atoms. -/
structure AtomParser {T : Type} (atom : List Tok → Parsed T) (A : T → List Tok → Prop) : Prop where
  sound : ∀ {ts rest a}, atom ts = some (a, rest) → ∃ pre, A a pre ∧ ts = pre ++ rest
  complete : ∀ {a pre}, A a pre → ∀ rest, atom (pre ++ rest) = some (a, rest)
  noGroup : ∀ {a pre}, A a pre → ∀ rest d c l, pre ++ rest ≠ .group d c :: l
  ident : ∀ {a x l}, A a (.ident x :: l) → IsIdent x

theorem parseMagnitudeAtom_spec : AtomParser parseMagnitudeAtom WrittenAtom where
  sound := by
    intro ts rest a h
    unfold parseMagnitudeAtom at h
    split at h
    · cases hi : parseIdent ts with
      | none => simp [hi] at h
      | some p =>
        obtain ⟨x, r⟩ := p
        simp only [hi, Option.bind_eq_bind, Option.bind_some, Option.some.injEq, Prod.mk.injEq] at h
        obtain ⟨rfl, rfl⟩ := h
        obtain ⟨h1, rfl⟩ := parseIdent_iff.1 hi
        exact ⟨[_], ⟨h1, rfl⟩, rfl⟩
    · split at h
      · cases hi : parseNumber ts with
        | none => simp [hi] at h
        | some p =>
          obtain ⟨x, r⟩ := p
          simp only [hi, Option.bind_eq_bind, Option.bind_some, Option.some.injEq, Prod.mk.injEq] at h
          obtain ⟨rfl, rfl⟩ := h
          exact parseNumber_sound hi
      · cases h
  complete := by
    intro a pre h rest
    cases a with
    | other x =>
      obtain ⟨h1, rfl⟩ := h
      have := (parseIdent_iff (ts := .ident x :: rest)).2 ⟨h1, rfl⟩
      simp [parseMagnitudeAtom, peekIdent, this]
    | concrete n =>
      obtain ⟨p1, p2, -⟩ := written_peekLit h rest
      simp [parseMagnitudeAtom, p1, p2, parseNumber_complete h rest]
  noGroup := by
    intro a pre h rest
    cases a with
    | other x => obtain ⟨h1, rfl⟩ := h; simp
    | concrete n => exact (written_peekLit h rest).2.2
  ident := by
    intro a x l h
    cases a with
    | other y => obtain ⟨h1, h2⟩ := h; cases h2; exact h1
    | concrete n => exact absurd h not_writtenNumber_ident

theorem feq_one_iff {x : Fl} : x.feq (f64Fmt.ofInt 1) = true ↔ x = .num false (1023 * 2 ^ 52) := by
  rw [show f64Fmt.ofInt 1 = .num false (1023 * 2 ^ 52) by decide +kernel]
  cases x with
  | nan => simp [Fl.feq]
  | num s n =>
    simp only [Fl.feq, Bool.and_eq_true, beq_iff_eq, Bool.or_eq_true, Fl.num.injEq]
    constructor
    · rintro ⟨rfl, rfl | h⟩
      · exact ⟨rfl, rfl⟩
      · norm_num at h
    · rintro ⟨rfl, rfl⟩
      exact ⟨rfl, .inl rfl⟩

theorem parseDimensionAtom_spec : AtomParser parseDimensionAtom WrittenDimensionAtom where
  sound := by
    intro ts rest a h
    unfold parseDimensionAtom at h
    split at h
    · unfold parseOne at h
      cases hi : parseNumber ts with
      | none => simp [hi] at h
      | some p =>
        obtain ⟨x, r⟩ := p
        simp only [hi, Option.bind_eq_bind, Option.bind_some] at h
        split at h
        · rename_i h1
          simp only [Option.bind_some, Option.some.injEq, Prod.mk.injEq] at h
          obtain ⟨rfl, rfl⟩ := h
          obtain ⟨pre, hp, hts⟩ := parseNumber_sound hi
          exact ⟨pre, ⟨x, hp, feq_one_iff.1 h1⟩, hts⟩
        · cases h
    · cases hi : parseIdent ts with
      | none => simp [hi] at h
      | some p =>
        obtain ⟨x, r⟩ := p
        simp only [hi, Option.bind_eq_bind, Option.bind_some, Option.some.injEq, Prod.mk.injEq] at h
        obtain ⟨rfl, rfl⟩ := h
        obtain ⟨h1, rfl⟩ := parseIdent_iff.1 hi
        exact ⟨[_], ⟨h1, rfl⟩, rfl⟩
  complete := by
    intro a pre h rest
    cases a with
    | other x =>
      obtain ⟨h1, rfl⟩ := h
      have := (parseIdent_iff (ts := .ident x :: rest)).2 ⟨h1, rfl⟩
      simp [parseDimensionAtom, ident_not_lit h1, this]
    | concrete n =>
      obtain ⟨n, h, h1⟩ := h
      obtain ⟨p1, -, -⟩ := written_peekLit h rest
      have : n.isOne = true := feq_one_iff.2 h1
      simp [parseDimensionAtom, p1, parseOne, parseNumber_complete h rest, this]
  noGroup := by
    intro a pre h rest
    cases a with
    | other x => obtain ⟨h1, rfl⟩ := h; simp
    | concrete n => obtain ⟨n, h, h1⟩ := h; exact (written_peekLit h rest).2.2
  ident := by
    intro a x l h
    cases a with
    | other y => obtain ⟨h1, h2⟩ := h; cases h2; exact h1
    | concrete n => obtain ⟨n, h, h1⟩ := h; exact absurd h not_writtenNumber_ident

theorem parseExponent_sound {rational : Bool} {ts rest : List Tok} {x : ExpSyn} (h : parseExponent rational ts = some (x, rest)) :
    ∃ pre, WrittenExponentTokens rational x pre ∧ ts = pre ++ rest := by
  have hint : ∀ {ts : List Tok}, ((parseInt ts).bind fun p => some (⟨p.1, none⟩, p.2) : Parsed ExpSyn) = some (x, rest) →
      ∃ pre, WrittenExponentTokens rational x pre ∧ ts = pre ++ rest := by
    intro ts h
    obtain ⟨⟨n, r⟩, hp, he⟩ := Option.bind_eq_some_iff.1 h
    simp only [Option.some.injEq, Prod.mk.injEq] at he
    obtain ⟨rfl, rfl⟩ := he
    exact parseInt_sound hp
  unfold parseExponent at h
  cases rational with
  | false => exact hint h
  | true =>
    simp only [if_true] at h
    split at h
    · exact hint h
    · split at h
      · rename_i c r _
        cases hn : parseInt c with
        | none => simp [hn] at h
        | some p =>
          obtain ⟨n, c'⟩ := p
          simp only [hn, Option.bind_eq_bind, Option.bind_some] at h
          split at h
          · rename_i c''
            cases hd : parseInt c'' with
            | none => simp [hd] at h
            | some p =>
              obtain ⟨d, c3⟩ := p
              simp only [hd, Option.bind_some] at h
              split at h
              · rename_i he
                simp only [Option.some.injEq, Prod.mk.injEq] at h
                obtain ⟨rfl, rfl⟩ := h
                obtain ⟨tn, h1, rfl⟩ := parseInt_sound hn
                obtain ⟨td, h2, rfl⟩ := parseInt_sound hd
                rw [List.isEmpty_iff] at he
                subst he
                refine ⟨[_], ⟨rfl, tn, td, h1, h2, rfl⟩, by simp⟩
              · cases h
          · cases h
      · cases h

theorem parseExponent_complete {rational : Bool} {pre : List Tok} {x : ExpSyn} (h : WrittenExponentTokens rational x pre) (rest : List Tok) :
    parseExponent rational (pre ++ rest) = some (x, rest) := by
  obtain ⟨n, d⟩ := x
  cases d with
  | none =>
    have h : WrittenInt n pre := h
    unfold parseExponent
    rw [writtenInt_peekLit h rest, parseInt_complete h rest]
    cases rational <;> rfl
  | some d =>
    obtain ⟨rfl, tn, td, h1, h2, rfl⟩ := h
    have hl : peekLit (Tok.group .paren (tn ++ .punct '/' :: td) :: rest) = false := rfl
    have e1 := parseInt_complete h1 (.punct '/' :: td)
    have e2 := parseInt_complete h2 []
    rw [List.append_nil] at e2
    simp [parseExponent, hl, e1, e2]

theorem parseOperator_sound {ts rest : List Tok} {o : Operator} (h : parseOperator ts = some (o, rest)) :
    ∃ tp, ts = tp ++ rest ∧ ((o = .mul ∧ tp = [.punct '*']) ∨ (o = .div ∧ tp = [.punct '/']) ∨
      (o = .mul ∧ tp = [] ∧ ∃ x l, IsIdent x ∧ rest = .ident x :: l)) := by
  unfold parseOperator at h
  split at h
  · cases h; exact ⟨[_], rfl, .inl ⟨rfl, rfl⟩⟩
  · cases h; exact ⟨[_], rfl, .inr (.inl ⟨rfl, rfl⟩)⟩
  · split at h
    · rename_i hp
      cases h
      refine ⟨[], rfl, .inr (.inr ⟨rfl, rfl, ?_⟩)⟩
      obtain ⟨⟨x, l⟩, hx⟩ := Option.isSome_iff_exists.1 hp
      obtain ⟨h1, h2⟩ := parseIdent_iff.1 hx
      exact ⟨x, l, h1, h2⟩
    · cases h

/-- The tokens do not begin with `^`. -/
def NoCaret (ts : List Tok) : Prop := ∀ l, ts ≠ .punct '^' :: l

theorem NoCaret.of_atEnd {ts : List Tok} (h : atEnd ts = true) : NoCaret ts := by
  rintro l rfl; simp [atEnd] at h

theorem toksSize_append (a b : List Tok) : toksSize (a ++ b) = toksSize a + toksSize b := by
  induction a with
  | nil => simp [toksSize]
  | cons t l ih => simp [toksSize, ih]; omega

theorem toksSize_cons (t : Tok) (l : List Tok) : toksSize (t :: l) = t.size + toksSize l := by rw [toksSize]

theorem tok_size_pos (t : Tok) : 1 ≤ t.size := by cases t <;> simp [Tok.size]

theorem toksSize_group (d : Delim) (c l : List Tok) : toksSize (.group d c :: l) = 1 + toksSize c + toksSize l := by
  rw [toksSize, Tok.size]

section
variable {T : Type} {atom : List Tok → Parsed T} {A : T → List Tok → Prop} {rational : Bool}

/-- Everything the parser accepts is written as the grammar says. -/
theorem parse_sound (hA : AtomParser atom A) (n : Nat) :
    (∀ ts f rest, parseFactor atom rational n ts = some (f, rest) → ∃ pre, WrittenFactor A rational f pre ∧ ts = pre ++ rest) ∧
    (∀ l tl ts e rest, WrittenExpr A rational l tl → parseLoop atom rational n l ts = some (e, rest) →
      ∃ pre, WrittenExpr A rational e (tl ++ pre) ∧ ts = pre ++ rest ∧ atEnd rest = true) ∧
    (∀ ts e rest, parseExpr atom rational n ts = some (e, rest) →
      ∃ pre, WrittenExpr A rational e pre ∧ ts = pre ++ rest ∧ atEnd rest = true) := by
  induction n with
  | zero => refine ⟨?_, ?_, ?_⟩ <;> intros <;> simp_all [parseFactor, parseLoop, parseExpr]
  | succ n ih =>
    obtain ⟨ihf, ihl, ihe⟩ := ih
    refine ⟨?_, ?_, ?_⟩
    · intro ts f rest h
      unfold parseFactor at h
      split at h
      · rename_i c r
        cases hc : parseExpr atom rational n c with
        | none => simp [hc] at h
        | some p =>
          obtain ⟨e, rc⟩ := p
          rw [hc] at h
          cases rc with
          | cons => simp at h
          | nil =>
            simp only [Option.some.injEq, Prod.mk.injEq] at h
            obtain ⟨rfl, rfl⟩ := h
            obtain ⟨pre, hw, rfl, -⟩ := ihe _ _ _ hc
            exact ⟨[_], by simp only [WrittenFactor]; exact ⟨_, hw, rfl⟩, by simp⟩
      · cases ha : atom ts with
        | none => simp [ha] at h
        | some p =>
          obtain ⟨a, ra⟩ := p
          simp only [ha, Option.bind_eq_bind, Option.bind_some] at h
          obtain ⟨pa, hpa, rfl⟩ := hA.sound ha
          split at h
          · rename_i r _
            cases hx : parseExponent rational r with
            | none => simp [hx] at h
            | some p =>
              obtain ⟨x, rx⟩ := p
              simp only [hx, Option.bind_some, Option.some.injEq, Prod.mk.injEq] at h
              obtain ⟨rfl, rfl⟩ := h
              obtain ⟨px, hpx, rfl⟩ := parseExponent_sound hx
              exact ⟨pa ++ .punct '^' :: px, by simp only [WrittenFactor]; exact ⟨pa, px, hpa, hpx, rfl⟩, by simp⟩
          · simp only [Option.some.injEq, Prod.mk.injEq] at h
            obtain ⟨rfl, rfl⟩ := h
            exact ⟨pa, by simpa only [WrittenFactor] using hpa, rfl⟩
    · intro l tl ts e rest hl h
      unfold parseLoop at h
      split at h
      · rename_i hend
        simp only [Option.some.injEq, Prod.mk.injEq] at h
        obtain ⟨rfl, rfl⟩ := h
        exact ⟨[], by simpa using hl, rfl, hend⟩
      · cases ho : parseOperator ts with
        | none => simp [ho] at h
        | some p =>
          obtain ⟨o, ro⟩ := p
          simp only [ho, Option.bind_eq_bind, Option.bind_some] at h
          cases hf : parseFactor atom rational n ro with
          | none => simp [hf] at h
          | some p =>
            obtain ⟨f, rf⟩ := p
            simp only [hf, Option.bind_some] at h
            obtain ⟨tf, hwf, rfl⟩ := ihf _ _ _ hf
            obtain ⟨tp, rfl, hop⟩ := parseOperator_sound ho
            have hwo : WrittenOperator o tp tf := by
              rcases hop with h1 | h1 | ⟨h1, h2, x, l', hx, h3⟩
              · exact .inl h1
              · exact .inr (.inl h1)
              · refine .inr (.inr ⟨h1, h2, ?_⟩)
                cases tf with
                | cons t tf' =>
                  simp only [List.cons_append, List.cons.injEq] at h3
                  obtain ⟨rfl, -⟩ := h3
                  exact ⟨x, tf', rfl⟩
                | nil =>
                  exfalso
                  cases f with
                  | value a =>
                    simp only [WrittenFactor] at hwf
                    have e1 := hA.complete hwf rf
                    have e2 := hA.complete hwf []
                    have g := hA.complete hwf [.group .brace [], .group .brace []]
                    exact hA.noGroup hwf [.group .brace []] .brace [] [] rfl
                  | power a x => simp [WrittenFactor] at hwf
                  | paren e => simp [WrittenFactor] at hwf
            obtain ⟨pre, hw, hts, hend⟩ := ihl (.binary l o f) (tl ++ tp ++ tf) rf e rest
              (by simp only [WrittenExpr]; exact ⟨tl, tp, tf, hl, hwf, hwo, rfl⟩) h
            exact ⟨tp ++ tf ++ pre, by simpa using hw, by simp [hts], hend⟩
    · intro ts e rest h
      unfold parseExpr at h
      cases hf : parseFactor atom rational n ts with
      | none => simp [hf] at h
      | some p =>
        obtain ⟨f, rf⟩ := p
        simp only [hf, Option.bind_eq_bind, Option.bind_some] at h
        obtain ⟨tf, hwf, rfl⟩ := ihf _ _ _ hf
        obtain ⟨pre, hw, hts, hend⟩ := ihl (.value f) tf rf e rest (by simpa only [WrittenExpr] using hwf) h
        exact ⟨tf ++ pre, hw, by simp [hts], hend⟩

/-- The number of operators on the spine of an expression. -/
def Expr.ops : Expr T ExpSyn → Nat
  | .value _ => 0
  | .binary l _ _ => l.ops + 1

theorem writtenFactor_ne (hA : AtomParser atom A) {f : Factor T ExpSyn} {ts : List Tok} (h : WrittenFactor A rational f ts) : ts ≠ [] := by
  rintro rfl
  cases f with
  | value a =>
    simp only [WrittenFactor] at h
    exact hA.noGroup h [.group .brace []] .brace [] [] rfl
  | power a x => simp [WrittenFactor] at h
  | paren e => simp [WrittenFactor] at h

theorem toksSize_pos {ts : List Tok} (h : ts ≠ []) : 1 ≤ toksSize ts := by
  cases ts with
  | nil => exact absurd rfl h
  | cons t l => rw [toksSize]; have := tok_size_pos t; omega

theorem ops_lt (hA : AtomParser atom A) : ∀ (e : Expr T ExpSyn) (ts : List Tok), WrittenExpr A rational e ts → e.ops + 1 ≤ toksSize ts
  | .value f, ts, h => by
    have := toksSize_pos (writtenFactor_ne hA (by simpa only [WrittenExpr] using h))
    simpa [Expr.ops] using this
  | .binary l o r, ts, h => by
    simp only [WrittenExpr] at h
    obtain ⟨tl, tp, tr, h1, h2, h3, rfl⟩ := h
    have i1 := ops_lt hA l tl h1
    have i2 := toksSize_pos (writtenFactor_ne hA h2)
    simp only [Expr.ops, toksSize_append]
    omega

mutual
/-- The parser reads every written factor, whatever follows. -/
theorem parseFactor_complete (hA : AtomParser atom A) : ∀ (f : Factor T ExpSyn) (ts rest : List Tok) (n : Nat),
    WrittenFactor A rational f ts → NoCaret rest → 2 * toksSize ts + 1 ≤ n → parseFactor atom rational n (ts ++ rest) = some (f, rest)
  | .value a, ts, rest, 0, _, _, hn => by omega
  | .value a, ts, rest, n + 1, h, hr, hn => by
    simp only [WrittenFactor] at h
    unfold parseFactor
    split
    · rename_i c l heq
      exact absurd heq (hA.noGroup h rest _ _ _)
    · simp only [hA.complete h rest, Option.bind_eq_bind, Option.bind_some]
      split
      · rename_i l _; exact absurd rfl (hr l)
      · rfl
  | .power a x, ts, rest, 0, _, _, hn => by omega
  | .power a x, ts, rest, n + 1, h, hr, hn => by
    simp only [WrittenFactor] at h
    obtain ⟨ta, tx, h1, h2, rfl⟩ := h
    unfold parseFactor
    rw [List.append_assoc]
    split
    · rename_i c l heq
      exact absurd heq (hA.noGroup h1 _ _ _ _)
    · simp only [hA.complete h1, Option.bind_eq_bind, Option.bind_some, List.cons_append]
      simp only [parseExponent_complete h2 rest, Option.bind_some]
  | .paren e, ts, rest, 0, _, _, hn => by omega
  | .paren e, ts, rest, n + 1, h, hr, hn => by
    simp only [WrittenFactor] at h
    obtain ⟨c, h1, rfl⟩ := h
    rw [toksSize_group, toksSize] at hn
    unfold parseFactor
    obtain ⟨m, rfl⟩ : ∃ m, n = m + 1 := ⟨n - 1, by omega⟩
    have := parseExpr_complete hA e c [] m h1 (by rintro l ⟨⟩) (by omega)
    rw [List.append_nil] at this
    simp only [List.cons_append, List.nil_append, this]
    have hops := ops_lt hA e c h1
    obtain ⟨k, hk⟩ : ∃ k, m - e.ops = k + 1 := ⟨m - e.ops - 1, by omega⟩
    rw [hk]
    simp [parseLoop, atEnd]
/-- The parser reads every written expression and then continues with its loop. -/
theorem parseExpr_complete (hA : AtomParser atom A) : ∀ (e : Expr T ExpSyn) (ts rest : List Tok) (n : Nat),
    WrittenExpr A rational e ts → NoCaret rest → 2 * toksSize ts + 1 ≤ n →
      parseExpr atom rational (n + 1) (ts ++ rest) = parseLoop atom rational (n - e.ops) e rest
  | .value f, ts, rest, n, h, hr, hn => by
    simp only [WrittenExpr] at h
    unfold parseExpr
    simp only [parseFactor_complete hA f ts rest n h hr hn, Option.bind_eq_bind, Option.bind_some, Expr.ops, Nat.sub_zero]
  | .binary l o r, ts, rest, n, h, hr, hn => by
    simp only [WrittenExpr] at h
    obtain ⟨tl, tp, tr, h1, h2, h3, rfl⟩ := h
    have hne := writtenFactor_ne hA h2
    have hop : NoCaret (tp ++ tr ++ rest) ∧ atEnd (tp ++ tr ++ rest) = false ∧ parseOperator (tp ++ tr ++ rest) = some (o, tr ++ rest) := by
      rcases h3 with ⟨rfl, rfl⟩ | ⟨rfl, rfl⟩ | ⟨rfl, rfl, x, l', hx⟩
      · refine ⟨?_, rfl, rfl⟩
        intro l hl; simp at hl
      · refine ⟨?_, rfl, rfl⟩
        intro l hl; simp at hl
      · subst hx
        refine ⟨?_, rfl, ?_⟩
        · intro l hl; simp at hl
        · have hi : IsIdent x := by
            cases r with
            | value a => simp only [WrittenFactor] at h2; exact hA.ident h2
            | power a y =>
              simp only [WrittenFactor] at h2
              obtain ⟨ta, tx, h4, -, h5⟩ := h2
              cases ta with
              | nil => exact absurd rfl (hA.noGroup h4 [.group .brace []] .brace [] [])
              | cons t ta =>
                simp only [List.cons_append, List.cons.injEq] at h5
                obtain ⟨rfl, -⟩ := h5
                exact hA.ident h4
            | paren e => simp [WrittenFactor] at h2
          have hx : peekIdent (.ident x :: (l' ++ rest)) = true := by
            unfold peekIdent
            rw [parseIdent_iff.2 ⟨hi, rfl⟩]; rfl
          simp [parseOperator, hx]
    have s1 := toksSize_pos hne
    have s2 := ops_lt hA l tl h1
    simp only [toksSize_append] at hn
    have e1 := parseExpr_complete hA l tl (tp ++ tr ++ rest) n h1 hop.1 (by omega)
    rw [show tl ++ tp ++ tr ++ rest = tl ++ (tp ++ tr ++ rest) by simp, e1]
    obtain ⟨k, hk⟩ : ∃ k, n - l.ops = k + 1 := ⟨n - l.ops - 1, by omega⟩
    rw [hk]
    conv_lhs => unfold parseLoop
    simp only [hop.2.1, hop.2.2, Bool.false_eq_true, if_false, Option.bind_eq_bind, Option.bind_some]
    rw [parseFactor_complete hA r tr rest k h2 hr (by omega)]
    simp only [Option.bind_some, Expr.ops]
    congr 1
    omega
end
end
end Diman
