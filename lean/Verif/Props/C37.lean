import Verif.Props.C42
import Verif.Proofs.Generated
/-!
# C37 Malformed unit statements are rejected
-/
set_option linter.unusedSectionVars false
namespace Diman

/-- **C37.** A unit statement, followed by `;` or nothing, is read as `u` if and only if it is written as the grammar says: well-formed
attributes, at most one `symbol` and one `metric_prefixes`, and either one `base` attribute and no expression or an expression and no `base`
attribute. -/
theorem C37_iff (rational : Bool) (ts rest : List Tok) (u : UnitTemplate ExpSyn Number) (hr : rest = [] ∨ ∃ l, rest = .punct ';' :: l) :
    parseEntry rational ts = some (.unit u, rest) ↔ ∃ pre, WrittenUnit rational u pre ∧ ts = pre ++ rest := by
  constructor
  · intro h
    obtain ⟨pre, h1, h2⟩ := parseEntry_sound h
    exact ⟨pre, h1, h2⟩
  · rintro ⟨pre, h1, rfl⟩
    exact parseEntry_complete (e := .unit u) h1 hr

/-- The tokens `#[c]` for each `c`. -/
def attrTokens (cs : List (List Tok)) : List Tok := cs.flatMap fun c => [.punct '#', .group .bracket c]

/-- The attribute's content begins with this name. -/
def headed (s : Str) : List Tok → Bool
  | .ident x :: _ => decide (x = s)
  | _ => false

theorem writtenAttrs_tokens {forms : List AttrForm} {ta : List Tok} (h : WrittenAttrs WrittenAttr forms ta) :
    ∃ cs, ta = attrTokens cs ∧ List.Forall₂ WrittenAttr forms cs := by
  induction forms generalizing ta with
  | nil => exact ⟨[], h, .nil⟩
  | cons f forms ih =>
    obtain ⟨c, tl, h1, h2, rfl⟩ := h
    obtain ⟨cs, rfl, h3⟩ := ih h2
    exact ⟨c :: cs, rfl, .cons h1 h3⟩

theorem attrTokens_inj : ∀ (cs cs' : List (List Tok)) (x y : Str) (r r' : List Tok),
    attrTokens cs ++ .ident x :: r = attrTokens cs' ++ .ident y :: r' → cs = cs' ∧ x = y ∧ r = r'
  | [], [], x, y, r, r', h => by simp [attrTokens] at h; exact ⟨rfl, h.1, h.2⟩
  | [], c :: cs, x, y, r, r', h => by simp [attrTokens] at h
  | c :: cs, [], x, y, r, r', h => by simp [attrTokens] at h
  | c :: cs, c' :: cs', x, y, r, r', h => by
    simp only [attrTokens, List.flatMap_cons, List.cons_append, List.nil_append, List.cons.injEq, Tok.group.injEq, true_and] at h
    obtain ⟨rfl, h⟩ := h
    obtain ⟨rfl, h1, h2⟩ := attrTokens_inj cs cs' x y r r' h
    exact ⟨rfl, h1, h2⟩

theorem headed_form {f : AttrForm} {c : List Tok} (h : WrittenAttr f c) :
    headed (str!"base") c = (match f with | .base _ => true | _ => false) ∧
    headed (str!"symbol") c = (match f with | .symbol _ => true | _ => false) ∧
    headed (str!"metric_prefixes") c = (match f with | .metricPrefixes _ => true | _ => false) := by
  cases f with
  | base d => obtain ⟨-, rfl⟩ := h; simp [headed]
  | symbol d => obtain ⟨-, rfl⟩ := h; simp [headed]
  | «alias» d => obtain ⟨c, -, rfl⟩ := h; simp [headed]
  | «prefix» d => obtain ⟨c, -, rfl⟩ := h; simp [headed]
  | metricPrefixes d => rcases h with ⟨-, rfl | rfl⟩ | ⟨c, -, rfl⟩ <;> simp [headed]

theorem headed_counts {forms : List AttrForm} {cs : List (List Tok)} (h : List.Forall₂ WrittenAttr forms cs) :
    cs.countP (headed (str!"base")) = (AttrForm.bases forms).length ∧
    cs.countP (headed (str!"symbol")) = (AttrForm.symbols forms).length ∧
    cs.countP (headed (str!"metric_prefixes")) = (AttrForm.metrics forms).length := by
  induction h with
  | nil => exact ⟨rfl, rfl, rfl⟩
  | cons h _ ih =>
    rename_i f c _ _ _
    obtain ⟨h1, h2, h3⟩ := headed_form h
    obtain ⟨i1, i2, i3⟩ := ih
    simp only [List.countP_cons, h1, h2, h3, i1, i2, i3]
    cases f <;> simp [AttrForm.bases, AttrForm.symbols, AttrForm.metrics]

theorem unit_keyword_ne : (str!"unit") ≠ str!"quantity_type" ∧ (str!"unit") ≠ str!"dimension_type" ∧ (str!"unit") ≠ str!"dimension" ∧
    (str!"unit") ≠ str!"constant" := by decide

theorem no_equals {rational : Bool} {ts rest : List Tok} {u : UnitTemplate ExpSyn Number} {d : Str} (hd : u.definition = .base d)
    (h : parseEntry rational ts = some (.unit u, rest)) :
    (∀ l, rest ≠ .punct '=' :: l) ∧ (u.annotation = none → ∀ l, rest ≠ .punct ':' :: l) := by
  unfold parseEntry at h
  simp only [Option.bind_eq_bind, Option.bind_eq_some_iff] at h
  obtain ⟨⟨as, r⟩, h1, h⟩ := h
  simp only at h
  split at h
  · rename_i k r'
    split at h
    · split at h
      · simp [Option.bind_eq_some_iff] at h
      · cases h
    · split at h
      · split at h
        · simp [Option.bind_eq_some_iff] at h
        · cases h
      · split at h
        · split at h
          · simp [Option.bind_eq_some_iff] at h
          · cases h
        · split at h
          · simp only [Option.bind_eq_some_iff] at h
            obtain ⟨⟨u', r2⟩, h2, h3⟩ := h
            cases h3
            obtain ⟨r3, r4, forms, -, hann, -, h7, -⟩ := parseUnit_iff.1 h2
            rw [hd] at h7
            unfold parseDefinition at h7
            split at h7
            · simp [Option.bind_eq_some_iff] at h7
            · cases h7
            · rename_i hn _
              simp only [Option.some.injEq, Prod.mk.injEq] at h7
              obtain ⟨-, rfl⟩ := h7
              refine ⟨fun l hl => hn l hl, fun ha l hl => ?_⟩
              subst hl
              rw [ha] at hann
              unfold parseAnnotation at hann
              split at hann
              · simp [Option.bind_eq_some_iff] at hann
              · rename_i hc
                simp only [Option.some.injEq, Prod.mk.injEq, true_and] at hann
                exact hc _ hann
            · cases h7
          · split at h
            · split at h
              · simp [Option.bind_eq_some_iff] at h
              · cases h
            · cases h
  · cases h

/-- **C37.** What an accepted unit statement `#[c₁] … #[cₙ] unit name …` must satisfy, in terms of its tokens. -/
theorem C37_requirements (rational : Bool) (cs : List (List Tok)) (body rest : List Tok) (e : Entry)
    (accepted : parseEntry rational (attrTokens cs ++ .ident (str!"unit") :: body) = some (e, rest)) :
    (∀ c ∈ cs, ∃ f, WrittenAttr f c) ∧
    cs.countP (headed (str!"symbol")) ≤ 1 ∧ cs.countP (headed (str!"metric_prefixes")) ≤ 1 ∧
    ∃ u tn td, e = .unit u ∧ body = .ident u.name :: (tn ++ td ++ rest) ∧ WrittenAnnotation u.annotation tn ∧ IsIdent u.name ∧
      match u.definition with
      | .base _ => cs.countP (headed (str!"base")) = 1 ∧ td = [] ∧ (∀ l, rest ≠ .punct '=' :: l) ∧
        (u.annotation = none → ∀ l, rest ≠ .punct ':' :: l)
      | .expression ex => cs.countP (headed (str!"base")) = 0 ∧ ∃ te, WrittenExpr WrittenAtom rational ex te ∧ td = .punct '=' :: te := by
  obtain ⟨pre, h1, h2⟩ := parseEntry_sound accepted
  have notPlain : ∀ k b, Plain (.ident k :: b) pre → k = str!"unit" := by
    rintro k b ⟨names, ta, h3, rfl⟩
    have : ∃ cs', ta = attrTokens cs' := by
      clear h2 accepted h1
      induction names generalizing ta with
      | nil => exact ⟨[], h3⟩
      | cons n names ih =>
        obtain ⟨c, tl, -, h5, rfl⟩ := h3
        obtain ⟨cs', rfl⟩ := ih tl h5
        exact ⟨c :: cs', rfl⟩
    obtain ⟨cs', rfl⟩ := this
    rw [List.append_assoc] at h2
    exact (attrTokens_inj _ _ _ _ _ _ h2).2.1.symm
  cases e with
  | quantityType x => exact absurd (notPlain _ _ h1.2) (by decide)
  | dimensionType x => exact absurd (notPlain _ _ h1.2) (by decide)
  | dimension d => obtain ⟨-, td, hp, -⟩ := h1; exact absurd (notPlain _ _ hp) (by decide)
  | constant c => obtain ⟨-, tn, te, -, -, hp⟩ := h1; exact absurd (notPlain _ _ hp) (by decide)
  | unit u =>
    obtain ⟨forms, ta, tn, td, h3, h4, h5, rfl, h6, h7, ⟨me, h8, h9⟩, h10⟩ := h1
    obtain ⟨cs', rfl, h11⟩ := writtenAttrs_tokens h3
    rw [List.append_assoc] at h2
    obtain ⟨rfl, -, rfl⟩ := attrTokens_inj _ _ _ _ _ _ h2
    obtain ⟨c1, c2, c3⟩ := headed_counts h11
    refine ⟨fun c hc => ?_, ?_, ?_, u, tn, td, rfl, by simp, h5, h4, ?_⟩
    · obtain ⟨f, _, hf⟩ := forall₂_mem_right h11 hc
      exact ⟨f, hf⟩
    · rw [c2, h7]; cases u.symbol <;> simp
    · rw [c3, h8]; cases me <;> simp
    · rw [c1]
      cases hd : u.definition with
      | base d => rw [hd] at h10; obtain ⟨h12, h13⟩ := h10; exact ⟨by rw [h12]; rfl, h13, no_equals hd accepted⟩
      | expression ex => rw [hd] at h10; obtain ⟨h12, h13⟩ := h10; exact ⟨by rw [h12]; rfl, h13⟩

/-- **C37.** Rejected, whatever else the statement contains: repeated `symbol`, `metric_prefixes` or `base` attributes; an attribute that is none of
the well-formed ones; a `base` attribute together with an expression; neither. -/
theorem C37_rejections (rational : Bool) (cs : List (List Tok)) (body : List Tok) :
    (2 ≤ cs.countP (headed (str!"symbol")) → parseEntry rational (attrTokens cs ++ .ident (str!"unit") :: body) = none) ∧
    (2 ≤ cs.countP (headed (str!"metric_prefixes")) → parseEntry rational (attrTokens cs ++ .ident (str!"unit") :: body) = none) ∧
    (2 ≤ cs.countP (headed (str!"base")) → parseEntry rational (attrTokens cs ++ .ident (str!"unit") :: body) = none) ∧
    (∀ c ∈ cs, (¬∃ f, WrittenAttr f c) → parseEntry rational (attrTokens cs ++ .ident (str!"unit") :: body) = none) ∧
    (∀ name a tn r, body = .ident name :: (tn ++ .punct '=' :: r) → WrittenAnnotation a tn → 1 ≤ cs.countP (headed (str!"base")) →
      parseEntry rational (attrTokens cs ++ .ident (str!"unit") :: body) = none) ∧
    (∀ name a tn r, body = .ident name :: (tn ++ r) → WrittenAnnotation a tn → (∀ l, r ≠ .punct '=' :: l) → (∀ l, r ≠ .punct ':' :: l) →
      cs.countP (headed (str!"base")) = 0 → parseEntry rational (attrTokens cs ++ .ident (str!"unit") :: body) = none) := by
  have main : ∀ P : Prop, (∀ e rest, parseEntry rational (attrTokens cs ++ .ident (str!"unit") :: body) = some (e, rest) → ¬P) → P →
      parseEntry rational (attrTokens cs ++ .ident (str!"unit") :: body) = none := by
    intro P h hp
    cases hx : parseEntry rational (attrTokens cs ++ .ident (str!"unit") :: body) with
    | none => rfl
    | some p => exact absurd hp (h p.1 p.2 hx)
  have ann : ∀ (a a' : Option Str) (tn tn' r r' : List Tok), WrittenAnnotation a tn → WrittenAnnotation a' tn' → tn ++ r = tn' ++ r' →
      (∀ l, r ≠ .punct ':' :: l) → (∀ l, r' ≠ .punct ':' :: l) → r = r' := by
    intro a a' tn tn' r r' h h' he hr hr'
    have e1 := parseAnnotation_complete h hr
    have e2 := parseAnnotation_complete h' hr'
    rw [he, e2] at e1
    cases e1
    rfl
  refine ⟨main _ ?_, main _ ?_, main _ ?_, fun c hc => main _ ?_, fun name a tn r hb ha => main _ ?_, fun name a tn r hb ha hr1 hr2 => main _ ?_⟩
  · intro e rest h; have := (C37_requirements _ _ _ _ _ h).2.1; omega
  · intro e rest h; have := (C37_requirements _ _ _ _ _ h).2.2.1; omega
  · intro e rest h
    obtain ⟨u, tn, td, -, -, -, -, hd⟩ := (C37_requirements _ _ _ _ _ h).2.2.2
    cases hdef : u.definition with
    | base d => rw [hdef] at hd; have := hd.1; omega
    | expression ex => rw [hdef] at hd; have := hd.1; omega
  · intro e rest h hn; exact hn ((C37_requirements _ _ _ _ _ h).1 c hc)
  · intro e rest h hbase
    obtain ⟨u, tn', td, -, hbody, hann, -, hd⟩ := (C37_requirements _ _ _ _ _ h).2.2.2
    cases hdef : u.definition with
    | base d =>
      rw [hdef] at hd
      obtain ⟨-, rfl, hne, hnc⟩ := hd
      rw [hb] at hbody
      simp only [List.cons.injEq, List.append_nil] at hbody
      obtain ⟨-, hbody⟩ := hbody
      cases hua : u.annotation with
      | none =>
        rw [hua] at hann
        have hann : tn' = [] := hann
        subst hann
        cases a with
        | none =>
          have ha : tn = [] := ha
          subst ha
          exact hne _ hbody.symm
        | some x =>
          obtain ⟨-, rfl⟩ := ha
          exact hnc hua _ hbody.symm
      | some y =>
        rw [hua] at hann
        obtain ⟨-, rfl⟩ := hann
        cases a with
        | none =>
          have ha : tn = [] := ha
          subst ha
          simp at hbody
        | some x =>
          obtain ⟨-, rfl⟩ := ha
          simp only [List.cons_append, List.nil_append, List.cons.injEq, true_and] at hbody
          exact hne _ hbody.2.symm
    | expression ex => rw [hdef] at hd; have := hd.1; omega
  · intro e rest h hbase
    obtain ⟨u, tn', td, -, hbody, hann, -, hd⟩ := (C37_requirements _ _ _ _ _ h).2.2.2
    cases hdef : u.definition with
    | base d => rw [hdef] at hd; have := hd.1; omega
    | expression ex =>
      rw [hdef] at hd
      obtain ⟨-, te, -, rfl⟩ := hd
      rw [hb] at hbody
      simp only [List.cons.injEq, List.append_assoc] at hbody
      have := ann _ _ _ _ _ _ ha hann hbody.2 hr2 (by intro l hl; simp at hl)
      exact hr1 _ this

/-- **C37.** `base`, `symbol`, `alias` and `prefix` need their arguments, attributes other than the five are unknown, and nothing may follow the
argument list. -/
theorem C37_bad_attributes (n : Str) (c more : List Tok) (t : Tok) :
    (n ∈ [str!"base", str!"symbol", str!"alias", str!"prefix"] → ¬∃ f, WrittenAttr f [.ident n]) ∧
    (n ∈ [str!"base", str!"symbol"] → ¬∃ f, WrittenAttr f [.ident n, .group .paren []]) ∧
    (n ∉ attributeNames → ¬∃ f, WrittenAttr f (.ident n :: more)) ∧
    (¬∃ f, WrittenAttr f (.ident n :: .group .paren c :: t :: more)) := by
  refine ⟨?_, ?_, ?_, ?_⟩
  · rintro hn ⟨f, hf⟩
    cases f with
    | base d => simp [WrittenAttr] at hf
    | symbol d => simp [WrittenAttr] at hf
    | «alias» d => simp [WrittenAttr] at hf
    | «prefix» d => simp [WrittenAttr] at hf
    | metricPrefixes d =>
      simp [WrittenAttr] at hf
      rw [hf.2] at hn
      simp at hn
  · rintro hn ⟨f, hf⟩
    cases f with
    | base d => simp [WrittenAttr] at hf
    | symbol d => simp [WrittenAttr] at hf
    | «alias» d => simp [WrittenAttr] at hf; rw [hf.2] at hn; simp at hn
    | «prefix» d => simp [WrittenAttr] at hf; rw [hf.2] at hn; simp at hn
    | metricPrefixes d =>
      simp [WrittenAttr] at hf
      rw [hf.2] at hn
      simp at hn
  · rintro hn ⟨f, hf⟩
    apply hn
    cases f with
    | base d => simp [WrittenAttr] at hf; rw [hf.2.1]; decide
    | symbol d => simp [WrittenAttr] at hf; rw [hf.2.1]; decide
    | «alias» d => obtain ⟨_, _, hf⟩ := hf; simp at hf; rw [hf.1]; decide
    | «prefix» d => obtain ⟨_, _, hf⟩ := hf; simp at hf; rw [hf.1]; decide
    | metricPrefixes d => rcases hf with ⟨-, hf | hf⟩ | ⟨_, _, hf⟩ <;> (simp at hf; rw [hf.1]; decide)
  · rintro ⟨f, hf⟩
    cases f with
    | base d => simp [WrittenAttr] at hf
    | symbol d => simp [WrittenAttr] at hf
    | «alias» d => simp [WrittenAttr] at hf
    | «prefix» d => simp [WrittenAttr] at hf
    | metricPrefixes d => simp [WrittenAttr] at hf

/-- **C37.** On statements other than `unit` the attributes are not looked at: with arguments the statement is rejected, without arguments they are
silently ignored, even where they make no sense. -/
theorem C37_ignored_attributes (rational : Bool) (n : Str) (hn : n ∈ attributeNames) :
    parseEntry rational (attrTokens [[.ident n]] ++ [.ident (str!"dimension"), .ident (str!"Length")]) =
      some (.dimension ⟨str!"Length", .base ()⟩, []) ∧
    ∀ i, i ≠ [] → parseEntry rational (attrTokens [[.ident n, .group .paren i]] ++ [.ident (str!"dimension"), .ident (str!"Length")]) = none := by
  simp only [attributeNames, List.mem_cons, List.not_mem_nil, or_false] at hn
  refine ⟨?_, ?_⟩
  · cases rational <;> rcases hn with rfl | rfl | rfl | rfl | rfl <;> rfl
  · intro i hi
    rcases hn with rfl | rfl | rfl | rfl | rfl <;>
      simp [attrTokens, parseEntry, parseAttributes, parseAttribute, attrName, AttrName.keyword, droppable, hi]

/-- **C37.** One rejected statement makes the whole macro invocation a syntax error, whatever statements come before it. -/
theorem C37_system_rejected (rational : Bool) (before : List (Entry × List Tok)) (written : ∀ p ∈ before, WrittenEntry rational p.1 p.2)
    (bad : List Tok) (nonempty : bad ≠ []) (rejected : parseEntry rational bad = none) :
    parseSystem rational (before.flatMap (fun p => p.2 ++ [.punct ';']) ++ bad) = none := by
  have key : ∀ (l : List (Entry × List Tok)) (n : Nat), (∀ p ∈ l, WrittenEntry rational p.1 p.2) →
      parseTerminated (parseEntry rational) ';' n (l.flatMap (fun p => p.2 ++ [.punct ';']) ++ bad) = none := by
    intro l
    induction l with
    | nil =>
      intro n _
      cases bad with
      | nil => exact absurd rfl nonempty
      | cons t bad =>
        cases n with
        | zero => simp [parseTerminated]
        | succ n => simp [parseTerminated, rejected]
    | cons p l ih =>
      intro n h
      have hp := parseEntry_complete (rest := .punct ';' :: (l.flatMap (fun p => p.2 ++ [.punct ';']) ++ bad))
        (h p (List.mem_cons_self ..)) (.inr ⟨_, rfl⟩)
      obtain ⟨e, tp⟩ := p
      cases tp with
      | nil => exact absurd (h _ (List.mem_cons_self ..)) (parseEntry_item rational).nonempty
      | cons t tp =>
        cases n with
        | zero => simp [parseTerminated]
        | succ n =>
          simp only [List.flatMap_cons, List.cons_append, List.append_assoc, List.nil_append] at hp ⊢
          simp [parseTerminated, hp, ih n fun p hp => h p (List.mem_cons_of_mem _ hp)]
  unfold parseSystem
  rw [key before _ written]
  rfl

/-- `#[base(Length)] #[symbol(m)] unit meter` is accepted; with a second symbol, with an expression, without the base attribute, with
`#[symbol]`, or with an unknown attribute it is not. -/
example :
    let b := [Tok.ident (str!"base"), .group .paren [.ident (str!"Length")]]
    let s := [Tok.ident (str!"symbol"), .group .paren [.ident (str!"m")]]
    (parseEntry false (attrTokens [b, s] ++ [.ident (str!"unit"), .ident (str!"meter")])).isSome = true ∧
    (parseEntry false (attrTokens [b, s, s] ++ [.ident (str!"unit"), .ident (str!"meter")])).isSome = false ∧
    (parseEntry false (attrTokens [b, s] ++ [.ident (str!"unit"), .ident (str!"meter"), .punct '=', .ident (str!"x")])).isSome = false ∧
    (parseEntry false (attrTokens [s] ++ [.ident (str!"unit"), .ident (str!"meter"), .punct '=', .ident (str!"x")])).isSome = true ∧
    (parseEntry false (attrTokens [s] ++ [.ident (str!"unit"), .ident (str!"meter")])).isSome = false ∧
    (parseEntry false (attrTokens [b, [.ident (str!"symbol")]] ++ [.ident (str!"unit"), .ident (str!"meter")])).isSome = false ∧
    (parseEntry false (attrTokens [b, [.ident (str!"foo")]] ++ [.ident (str!"unit"), .ident (str!"meter")])).isSome = false := by
  decide +kernel

end Diman
