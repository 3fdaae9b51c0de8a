import Verif.Props.C05
/-! The statement parser accepts exactly the written statements. -/
set_option linter.unusedSectionVars false
namespace Diman

/-- The tokens end here or at a separator. -/
def EndsAt (sep : Char) (rest : List Tok) : Prop := rest = [] ∨ ∃ l, rest = .punct sep :: l

/-- An item parser reads exactly the written items, when followed by a separator or nothing. -/
structure ItemParser {α : Type} (item : List Tok → Parsed α) (S : α → List Tok → Prop) (sep : Char) : Prop where
  sound : ∀ {ts rest a}, item ts = some (a, rest) → ∃ pre, S a pre ∧ ts = pre ++ rest
  complete : ∀ {a pre rest}, S a pre → EndsAt sep rest → item (pre ++ rest) = some (a, rest)
  nonempty : ∀ {a}, ¬S a []

theorem separated_length {α : Type} {S : α → List Tok → Prop} {sep : Char} (hne : ∀ a, ¬S a []) :
    ∀ (l : List α) (ts : List Tok), Separated S sep l ts → l.length ≤ ts.length
  | [], ts, h => by simp
  | a :: l, ts, h => by
    obtain ⟨ta, tl, h1, h2, h3⟩ := h
    have := separated_length hne l tl h2
    cases ta with
    | nil => exact absurd h1 (hne a)
    | cons t ta =>
      rcases h3 with rfl | ⟨rfl, rfl⟩
      · simp; omega
      · simp

theorem parseTerminated_sound {α : Type} {item : List Tok → Parsed α} {S : α → List Tok → Prop} {sep : Char}
    (hS : ∀ {ts rest a}, item ts = some (a, rest) → ∃ pre, S a pre ∧ ts = pre ++ rest) :
    ∀ (n : Nat) (ts : List Tok) (l : List α), parseTerminated item sep n ts = some l → Separated S sep l ts
  | 0, [], l, h => by simp only [parseTerminated] at h; cases h; rfl
  | 0, t :: ts, l, h => by simp [parseTerminated] at h
  | n + 1, [], l, h => by simp only [parseTerminated] at h; cases h; rfl
  | n + 1, t :: ts, l, h => by
    simp only [parseTerminated, Option.bind_eq_bind, Option.bind_eq_some_iff] at h
    obtain ⟨⟨a, r⟩, h1, h2⟩ := h
    obtain ⟨pre, hp, hts⟩ := hS h1
    rw [hts]
    split at h2
    · rename_i heq
      simp only at heq
      subst heq
      cases h2
      exact ⟨pre, [], hp, rfl, .inr ⟨rfl, by simp⟩⟩
    · rename_i c r' heq
      simp only at heq
      subst heq
      split at h2
      · rename_i hc
        subst hc
        simp only [Option.bind_eq_some_iff, Option.some.injEq] at h2
        obtain ⟨l', h3, rfl⟩ := h2
        exact ⟨pre, r', hp, parseTerminated_sound hS n r' l' h3, .inl rfl⟩
      · cases h2
    · cases h2

theorem parseTerminated_complete {α : Type} {item : List Tok → Parsed α} {S : α → List Tok → Prop} {sep : Char}
    (hS : ItemParser item S sep) : ∀ (l : List α) (n : Nat) (ts : List Tok), Separated S sep l ts → l.length ≤ n →
    parseTerminated item sep n ts = some l
  | [], n, ts, h, _ => by
    have h : ts = [] := h
    subst h
    cases n <;> rfl
  | a :: l, 0, ts, h, hn => by simp at hn
  | a :: l, n + 1, ts, h, hn => by
    obtain ⟨ta, tl, h1, h2, h3⟩ := h
    have hn' : l.length ≤ n := by simpa using hn
    cases ta with
    | nil => exact absurd h1 hS.nonempty
    | cons t ta =>
      rcases h3 with rfl | ⟨rfl, rfl⟩
      · have e := hS.complete (rest := .punct sep :: tl) h1 (.inr ⟨tl, rfl⟩)
        have ih := parseTerminated_complete hS l n tl h2 hn'
        simp only [List.cons_append] at e ⊢
        simp [parseTerminated, e, ih]
      · have e := hS.complete (rest := []) h1 (.inl rfl)
        rw [List.append_nil] at e
        simp [parseTerminated, e]

theorem parseTerminated_iff {α : Type} {item : List Tok → Parsed α} {S : α → List Tok → Prop} {sep : Char}
    (hS : ItemParser item S sep) {n : Nat} {ts : List Tok} (hn : ts.length ≤ n) {l : List α} :
    parseTerminated item sep n ts = some l ↔ Separated S sep l ts :=
  ⟨parseTerminated_sound hS.sound n ts l, fun h => parseTerminated_complete hS l n ts h
    (Nat.le_trans (separated_length (fun _ => hS.nonempty) l ts h) hn)⟩

theorem parseIdent_item (sep : Char) : ItemParser parseIdent WrittenIdent sep where
  sound := by
    intro ts rest a h
    obtain ⟨h1, rfl⟩ := parseIdent_iff.1 h
    exact ⟨[_], ⟨h1, rfl⟩, rfl⟩
  complete := by
    rintro a pre rest ⟨h1, rfl⟩ _
    exact parseIdent_iff.2 ⟨h1, rfl⟩
  nonempty := by rintro a ⟨-, h⟩; cases h

theorem keyword_find {p : Prefix} : (Prefix.all.find? fun q => q.keyword = p.keyword) = some p := by cases p <;> decide

theorem parsePrefix_item (sep : Char) : ItemParser parsePrefix WrittenPrefix sep where
  sound := by
    intro ts rest p h
    unfold parsePrefix at h
    split at h
    · simp only [Option.map_eq_some_iff, Prod.mk.injEq] at h
      obtain ⟨q, h1, rfl, rfl⟩ := h
      have := List.find?_some h1
      exact ⟨[_], by rw [WrittenPrefix]; simp only [decide_eq_true_eq] at this; rw [this], rfl⟩
    · cases h
  complete := by
    rintro p pre rest h _
    rw [WrittenPrefix] at h
    subst h
    simp [parsePrefix, keyword_find]
  nonempty := by rintro a h; cases h

/-! ## Attributes -/

/-- What an attribute means. -/
def Attr.form (a : Attr) : Option AttrForm :=
  match a.name with
  | .base => (baseFrom a).map .base
  | .alias => (aliasesFrom a).map .alias
  | .symbol => (symbolFrom a).map .symbol
  | .metricPrefixes => (metricFrom a).map .metricPrefixes
  | .prefix => (explicitFrom a).map .prefix

theorem attrName_iff {s : Str} {a : AttrName} : attrName s = some a ↔ s = a.keyword := by
  constructor
  · intro h
    have := List.find?_some h
    simpa using (by simpa using this : a.keyword = s).symm
  · rintro rfl
    cases a <;> decide

theorem parseAttribute_iff {c : List Tok} {a : Attr} : parseAttribute c = some a ↔
    c = match a.inner with
      | none => [.ident a.name.keyword]
      | some i => [.ident a.name.keyword, .group .paren i] := by
  obtain ⟨name, inner⟩ := a
  constructor
  · intro h
    unfold parseAttribute at h
    split at h
    · simp only [Option.bind_eq_bind, Option.bind_eq_some_iff] at h
      obtain ⟨nm, h1, h2⟩ := h
      rw [attrName_iff] at h1
      subst h1
      split at h2
      · cases h2; rfl
      · cases h2; rfl
      · cases h2
    · cases h
  · intro h
    have e := (attrName_iff (s := name.keyword) (a := name)).2 rfl
    cases inner with
    | none => simp only at h; subst h; simp [parseAttribute, e]
    | some i => simp only at h; subst h; simp [parseAttribute, e]

theorem singleIdent_iff {ts : List Tok} {x : Str} : singleIdent ts = some x ↔ IsIdent x ∧ ts = [.ident x] := by
  unfold singleIdent
  constructor
  · intro h
    split at h
    · rename_i y hy
      cases h
      exact parseIdent_iff.1 hy
    · cases h
  · rintro ⟨h, rfl⟩
    rw [parseIdent_iff.2 ⟨h, rfl⟩]

theorem attr_form_iff {f : AttrForm} {c : List Tok} : WrittenAttr f c ↔ ∃ a, parseAttribute c = some a ∧ a.form = some f := by
  simp only [parseAttribute_iff]
  constructor
  · intro h
    cases f with
    | base d =>
      obtain ⟨h1, rfl⟩ := h
      exact ⟨⟨.base, some [.ident d]⟩, rfl, by
        simp [Attr.form, baseFrom, Attr.innerOrErr, singleIdent_iff.2 ⟨h1, rfl⟩]⟩
    | symbol d =>
      obtain ⟨h1, rfl⟩ := h
      exact ⟨⟨.symbol, some [.ident d]⟩, rfl, by
        simp [Attr.form, symbolFrom, Attr.innerOrErr, singleIdent_iff.2 ⟨h1, rfl⟩]⟩
    | «alias» l =>
      obtain ⟨c, h1, rfl⟩ := h
      exact ⟨⟨.alias, some c⟩, rfl, by
        simp [Attr.form, aliasesFrom, Attr.innerOrErr, (parseTerminated_iff (parseIdent_item ',') le_rfl).2 h1]⟩
    | «prefix» l =>
      obtain ⟨c, h1, rfl⟩ := h
      exact ⟨⟨.prefix, some c⟩, rfl, by
        simp [Attr.form, explicitFrom, Attr.innerOrErr, (parseTerminated_iff (parsePrefix_item ',') le_rfl).2 h1]⟩
    | metricPrefixes l =>
      rcases h with ⟨rfl, rfl | rfl⟩ | ⟨c, h1, rfl⟩
      · exact ⟨⟨.metricPrefixes, none⟩, rfl, rfl⟩
      · exact ⟨⟨.metricPrefixes, some []⟩, rfl, rfl⟩
      · exact ⟨⟨.metricPrefixes, some (.ident (str!"skip") :: .punct ':' :: c)⟩, rfl, by
          simp [Attr.form, metricFrom, (parseTerminated_iff (parsePrefix_item ',') le_rfl).2 h1]⟩
  · rintro ⟨⟨name, inner⟩, rfl, hf⟩
    cases name with
    | base =>
      simp only [Attr.form, Option.map_eq_some_iff, baseFrom, Option.bind_eq_bind, Option.bind_eq_some_iff, Attr.innerOrErr] at hf
      obtain ⟨d, ⟨i, rfl, h1⟩, rfl⟩ := hf
      obtain ⟨h2, rfl⟩ := singleIdent_iff.1 h1
      exact ⟨h2, rfl⟩
    | symbol =>
      simp only [Attr.form, Option.map_eq_some_iff, symbolFrom, Option.bind_eq_bind, Option.bind_eq_some_iff, Attr.innerOrErr] at hf
      obtain ⟨d, ⟨i, rfl, h1⟩, rfl⟩ := hf
      obtain ⟨h2, rfl⟩ := singleIdent_iff.1 h1
      exact ⟨h2, rfl⟩
    | «alias» =>
      simp only [Attr.form, Option.map_eq_some_iff, aliasesFrom, Option.bind_eq_bind, Option.bind_eq_some_iff, Attr.innerOrErr] at hf
      obtain ⟨d, ⟨i, rfl, h1⟩, rfl⟩ := hf
      exact ⟨i, (parseTerminated_iff (parseIdent_item ',') le_rfl).1 h1, rfl⟩
    | «prefix» =>
      simp only [Attr.form, Option.map_eq_some_iff, explicitFrom, Option.bind_eq_bind, Option.bind_eq_some_iff, Attr.innerOrErr] at hf
      obtain ⟨d, ⟨i, rfl, h1⟩, rfl⟩ := hf
      exact ⟨i, (parseTerminated_iff (parsePrefix_item ',') le_rfl).1 h1, rfl⟩
    | metricPrefixes =>
      simp only [Attr.form, Option.map_eq_some_iff, metricFrom] at hf
      obtain ⟨d, h, rfl⟩ := hf
      split at h
      · cases h; exact .inl ⟨rfl, .inl rfl⟩
      · cases h; exact .inl ⟨rfl, .inr rfl⟩
      · split at h
        · rename_i hs
          subst hs
          split at h
          · rename_i r
            exact .inr ⟨r, (parseTerminated_iff (parsePrefix_item ',') le_rfl).1 h, rfl⟩
          · cases h
        · cases h
      · cases h

theorem parseAttributes_sound : ∀ (ts rest : List Tok) (as : List Attr), parseAttributes ts = some (as, rest) →
    ∃ ta, WrittenAttrs (fun a c => parseAttribute c = some a) as ta ∧ ts = ta ++ rest ∧ ∀ l, rest ≠ .punct '#' :: l := by
  intro ts
  induction hn : ts.length using Nat.strong_induction_on generalizing ts with
  | _ n ih =>
    intro rest as h
    unfold parseAttributes at h
    split at h
    · rename_i c ts'
      simp only [Option.bind_eq_bind, Option.bind_eq_some_iff] at h
      obtain ⟨a, h1, ⟨l, r⟩, h2, h3⟩ := h
      simp only [Option.some.injEq, Prod.mk.injEq] at h3
      obtain ⟨rfl, rfl⟩ := h3
      obtain ⟨ta, i1, i2, i3⟩ := ih ts'.length (by simp at hn; omega) ts' rfl _ _ h2
      exact ⟨_, ⟨c, ta, h1, i1, rfl⟩, by simp [i2], i3⟩
    · cases h
    · rename_i h1 h2
      cases h
      exact ⟨[], rfl, rfl, fun l hl => h2 l hl⟩

theorem parseAttributes_complete : ∀ (as : List Attr) (ta rest : List Tok), WrittenAttrs (fun a c => parseAttribute c = some a) as ta →
    (∀ l, rest ≠ .punct '#' :: l) → parseAttributes (ta ++ rest) = some (as, rest)
  | [], ta, rest, h, hr => by
    have h : ta = [] := h
    subst h
    rw [List.nil_append]
    unfold parseAttributes
    split
    · exact absurd rfl (hr _)
    · exact absurd rfl (hr _)
    · rfl
  | a :: as, ta, rest, h, hr => by
    obtain ⟨c, tl, h1, h2, rfl⟩ := h
    have ih := parseAttributes_complete as tl rest h2 hr
    simp [parseAttributes, h1, ih]

theorem writtenAttrs_form {forms : List AttrForm} {ta : List Tok} : WrittenAttrs WrittenAttr forms ta ↔
    ∃ as : List Attr, WrittenAttrs (fun a c => parseAttribute c = some a) as ta ∧ as.mapM Attr.form = some forms := by
  induction forms generalizing ta with
  | nil =>
    constructor
    · intro h; exact ⟨[], h, rfl⟩
    · rintro ⟨as, h1, h2⟩
      cases as with
      | nil => exact h1
      | cons a as =>
        simp only [List.mapM_cons, Option.bind_eq_bind, Option.bind_eq_some_iff] at h2
        obtain ⟨x, _, y, _, hh⟩ := h2
        cases hh
  | cons f forms ih =>
    constructor
    · rintro ⟨c, tl, h1, h2, rfl⟩
      obtain ⟨a, h3, h4⟩ := attr_form_iff.1 h1
      obtain ⟨as, h5, h6⟩ := ih.1 h2
      exact ⟨a :: as, ⟨c, tl, h3, h5, rfl⟩, by simp [List.mapM_cons, h4, h6]⟩
    · rintro ⟨as, h1, h2⟩
      cases as with
      | nil => simp at h2
      | cons a as =>
        obtain ⟨c, tl, h3, h4, rfl⟩ := h1
        simp only [List.mapM_cons, Option.bind_eq_bind, Option.bind_eq_some_iff] at h2
        obtain ⟨g, h5, gs, h6, h7⟩ := h2
        cases h7
        exact ⟨c, tl, attr_form_iff.2 ⟨a, h3, h5⟩, ih.2 ⟨as, h4, h6⟩, rfl⟩

/-! ## Attributes by kind -/

theorem mapM_cons_some {α β : Type} {f : α → Option β} {a : α} {l : List α} {r : List β} :
    (a :: l).mapM f = some r ↔ ∃ b bs, f a = some b ∧ l.mapM f = some bs ∧ r = b :: bs := by
  rw [List.mapM_cons]
  simp only [Option.bind_eq_bind, Option.bind_eq_some_iff]
  constructor
  · rintro ⟨b, h1, bs, h2, h3⟩
    cases h3
    exact ⟨b, bs, h1, h2, rfl⟩
  · rintro ⟨b, bs, h1, h2, rfl⟩
    exact ⟨b, h1, bs, h2, rfl⟩

/-- The attributes of one name. -/
def ofName (n : AttrName) (as : List Attr) : List Attr := as.filter fun a => decide (a.name = n)

theorem ofName_cons (n : AttrName) (a : Attr) (as : List Attr) :
    ofName n (a :: as) = if a.name = n then a :: ofName n as else ofName n as := by
  simp [ofName, List.filter_cons]

theorem kinds_of_forms : ∀ {as : List Attr} {forms : List AttrForm}, as.mapM Attr.form = some forms →
    (ofName .base as).mapM baseFrom = some (AttrForm.bases forms) ∧
    (ofName .symbol as).mapM symbolFrom = some (AttrForm.symbols forms) ∧
    (ofName .metricPrefixes as).mapM metricFrom = some (AttrForm.metrics forms) ∧
    (∃ l, (ofName .alias as).mapM aliasesFrom = some l ∧ l.flatten = AttrForm.aliases forms) ∧
    (∃ l, (ofName .prefix as).mapM explicitFrom = some l ∧ l.flatten = AttrForm.explicit forms)
  | [], forms, h => by
    simp only [List.mapM_nil] at h
    cases h
    exact ⟨rfl, rfl, rfl, ⟨[], rfl, rfl⟩, ⟨[], rfl, rfl⟩⟩
  | a :: as, forms, h => by
    obtain ⟨f, fs, h1, h2, rfl⟩ := mapM_cons_some.1 h
    obtain ⟨i1, i2, i3, ⟨l4, i4, i4'⟩, ⟨l5, i5, i5'⟩⟩ := kinds_of_forms h2
    simp only [ofName_cons]
    obtain ⟨name, inner⟩ := a
    cases name <;> simp only [Attr.form, Option.map_eq_some_iff] at h1 <;> obtain ⟨d, h1, rfl⟩ := h1 <;>
      simp only [reduceCtorEq, if_true, if_false]
    · exact ⟨mapM_cons_some.2 ⟨_, _, h1, i1, rfl⟩, i2, i3, ⟨l4, i4, by simpa [AttrForm.aliases] using i4'⟩, ⟨l5, i5, by simpa [AttrForm.explicit] using i5'⟩⟩
    · exact ⟨i1, i2, i3, ⟨d :: l4, mapM_cons_some.2 ⟨_, _, h1, i4, rfl⟩, by simpa [AttrForm.aliases] using i4'⟩,
        ⟨l5, i5, by simpa [AttrForm.explicit] using i5'⟩⟩
    · exact ⟨i1, mapM_cons_some.2 ⟨_, _, h1, i2, rfl⟩, i3, ⟨l4, i4, by simpa [AttrForm.aliases] using i4'⟩, ⟨l5, i5, by simpa [AttrForm.explicit] using i5'⟩⟩
    · exact ⟨i1, i2, mapM_cons_some.2 ⟨_, _, h1, i3, rfl⟩, ⟨l4, i4, by simpa [AttrForm.aliases] using i4'⟩, ⟨l5, i5, by simpa [AttrForm.explicit] using i5'⟩⟩
    · exact ⟨i1, i2, i3, ⟨l4, i4, by simpa [AttrForm.aliases] using i4'⟩, ⟨d :: l5, mapM_cons_some.2 ⟨_, _, h1, i5, rfl⟩,
        by simpa [AttrForm.explicit] using i5'⟩⟩

theorem forms_of_kinds : ∀ {as : List Attr} {b s m} {al ex : List _}, (ofName .base as).mapM baseFrom = some b →
    (ofName .symbol as).mapM symbolFrom = some s → (ofName .metricPrefixes as).mapM metricFrom = some m →
    (ofName .alias as).mapM aliasesFrom = some al → (ofName .prefix as).mapM explicitFrom = some ex →
    ∃ forms, as.mapM Attr.form = some forms
  | [], _, _, _, _, _, _, _, _, _, _ => ⟨[], rfl⟩
  | a :: as, b, s, m, al, ex, h1, h2, h3, h4, h5 => by
    simp only [ofName_cons] at h1 h2 h3 h4 h5
    obtain ⟨name, inner⟩ := a
    cases name <;> simp only [reduceCtorEq, if_true, if_false] at h1 h2 h3 h4 h5
    · obtain ⟨d, ds, k1, k2, rfl⟩ := mapM_cons_some.1 h1
      obtain ⟨fs, i⟩ := forms_of_kinds k2 h2 h3 h4 h5
      exact ⟨.base d :: fs, mapM_cons_some.2 ⟨_, _, by simp [Attr.form, k1], i, rfl⟩⟩
    · obtain ⟨d, ds, k1, k2, rfl⟩ := mapM_cons_some.1 h4
      obtain ⟨fs, i⟩ := forms_of_kinds h1 h2 h3 k2 h5
      exact ⟨.alias d :: fs, mapM_cons_some.2 ⟨_, _, by simp [Attr.form, k1], i, rfl⟩⟩
    · obtain ⟨d, ds, k1, k2, rfl⟩ := mapM_cons_some.1 h2
      obtain ⟨fs, i⟩ := forms_of_kinds h1 k2 h3 h4 h5
      exact ⟨.symbol d :: fs, mapM_cons_some.2 ⟨_, _, by simp [Attr.form, k1], i, rfl⟩⟩
    · obtain ⟨d, ds, k1, k2, rfl⟩ := mapM_cons_some.1 h3
      obtain ⟨fs, i⟩ := forms_of_kinds h1 h2 k2 h4 h5
      exact ⟨.metricPrefixes d :: fs, mapM_cons_some.2 ⟨_, _, by simp [Attr.form, k1], i, rfl⟩⟩
    · obtain ⟨d, ds, k1, k2, rfl⟩ := mapM_cons_some.1 h5
      obtain ⟨fs, i⟩ := forms_of_kinds h1 h2 h3 h4 k2
      exact ⟨.prefix d :: fs, mapM_cons_some.2 ⟨_, _, by simp [Attr.form, k1], i, rfl⟩⟩

theorem uniqueOf_iff {α : Type} {get : Attr → Option α} {as : List Attr} {r : Option α} :
    uniqueOf get as = some r ↔ as.mapM get = some r.toList := by
  match as with
  | [] => cases r <;> simp [uniqueOf]
  | [a] =>
    simp only [uniqueOf, Option.bind_eq_bind, Option.bind_eq_some_iff, mapM_cons_some]
    constructor
    · rintro ⟨x, h1, h2⟩
      cases h2
      exact ⟨x, [], h1, rfl, rfl⟩
    · rintro ⟨x, l, h1, h2, h3⟩
      simp only [List.mapM_nil] at h2
      cases h2
      cases r with
      | none => cases h3
      | some y => cases h3; exact ⟨x, h1, rfl⟩
  | a :: b :: as =>
    simp only [uniqueOf, reduceCtorEq, false_iff, mapM_cons_some]
    rintro ⟨x, l, h1, ⟨y, l', h2, h3, rfl⟩, h4⟩
    cases r <;> cases h4

theorem removeOfType_eq (n : AttrName) (as : List Attr) :
    removeOfType n as = (ofName n as, as.filter fun a => !decide (a.name = n)) := by
  simp [removeOfType, ofName, List.partition_eq_filter_filter]
  rfl

theorem ofName_filter {n m : AttrName} (h : n ≠ m) (as : List Attr) :
    ofName n (as.filter fun a => !decide (a.name = m)) = ofName n as := by
  unfold ofName
  rw [List.filter_filter]
  apply List.filter_congr
  intro a _
  by_cases ha : a.name = n
  · simp [ha, h]
  · simp [ha]

theorem all_removed (as : List Attr) : (((((as.filter fun a => !decide (a.name = .base)).filter fun a => !decide (a.name = .alias)).filter
    fun a => !decide (a.name = .symbol)).filter fun a => !decide (a.name = .metricPrefixes)).filter fun a => !decide (a.name = .prefix)) = [] := by
  simp only [List.filter_filter]
  rw [List.filter_eq_nil_iff]
  intro a _
  obtain ⟨name, inner⟩ := a
  cases name <;> simp

/-! ## Units -/

theorem parseAnnotation_sound {ts rest : List Tok} {a : Option Str} (h : parseAnnotation ts = some (a, rest)) :
    ∃ tn, WrittenAnnotation a tn ∧ ts = tn ++ rest := by
  unfold parseAnnotation at h
  split at h
  · simp only [Option.bind_eq_bind, Option.bind_eq_some_iff] at h
    obtain ⟨⟨x, r⟩, h1, h2⟩ := h
    cases h2
    obtain ⟨h3, rfl⟩ := parseIdent_iff.1 h1
    exact ⟨[_, _], ⟨h3, rfl⟩, rfl⟩
  · cases h
    exact ⟨[], rfl, rfl⟩

theorem parseAnnotation_complete {a : Option Str} {tn rest : List Tok} (h : WrittenAnnotation a tn)
    (hr : ∀ l, rest ≠ .punct ':' :: l) : parseAnnotation (tn ++ rest) = some (a, rest) := by
  cases a with
  | none =>
    have h : tn = [] := h
    subst h
    rw [List.nil_append]
    unfold parseAnnotation
    split
    · exact absurd rfl (hr _)
    · rfl
  | some x =>
    obtain ⟨h1, rfl⟩ := h
    simp [parseAnnotation, parseIdent_iff.2 ⟨h1, rfl⟩]

/-- The definition of a unit: after the base attributes have been read. -/
def parseDefinition (rational : Bool) (bases : List Str) (ts : List Tok) : Parsed (Definition ExpSyn Str Number) :=
  match ts, bases with
    | .punct '=' :: ts, [] => do
      let (e, ts) ← parseExprTop parseMagnitudeAtom rational ts
      some (Definition.expression e, ts)
    | .punct '=' :: _, _ => none
    | ts, [d] => some (Definition.base d, ts)
    | _, _ => none

theorem parseUnit_iff {rational : Bool} {attrs : List Attr} {ts rest : List Tok} {u : UnitTemplate ExpSyn Number} :
    parseUnit rational attrs ts = some (u, rest) ↔ ∃ r1 r2 forms, parseIdent ts = some (u.name, r1) ∧
      parseAnnotation r1 = some (u.annotation, r2) ∧ attrs.mapM Attr.form = some forms ∧
      parseDefinition rational (AttrForm.bases forms) r2 = some (u.definition, rest) ∧
      u.aliases = AttrForm.aliases forms ∧ AttrForm.symbols forms = u.symbol.toList ∧
      ∃ metric : Option (List Prefix), AttrForm.metrics forms = metric.toList ∧
        u.prefixes = (match metric with | some skip => metricPrefixes skip | none => []) ++ AttrForm.explicit forms := by
  unfold parseUnit
  simp only [removeOfType_eq, Option.bind_eq_bind, Option.bind_eq_some_iff]
  rw [ofName_filter (by decide), ofName_filter (by decide), ofName_filter (by decide), ofName_filter (by decide),
    ofName_filter (by decide), ofName_filter (by decide), ofName_filter (by decide), ofName_filter (by decide), ofName_filter (by decide),
    ofName_filter (by decide)]
  constructor
  · rintro ⟨⟨name, r1⟩, h1, ⟨ann, r2⟩, h2, bases, h3, ⟨d, r3⟩, h4, al, h5, sy, h6, me, h7, ex, h8, h9⟩
    rw [if_pos (by rw [all_removed]; rfl)] at h9
    cases h9
    rw [uniqueOf_iff] at h6 h7
    obtain ⟨forms, hf⟩ := forms_of_kinds h3 h6 h7 h5 h8
    obtain ⟨i1, i2, i3, ⟨l4, i4, i4'⟩, ⟨l5, i5, i5'⟩⟩ := kinds_of_forms hf
    rw [i1] at h3; cases h3
    rw [i2] at h6
    rw [i3] at h7
    rw [i4] at h5; cases h5
    rw [i5] at h8; cases h8
    refine ⟨r1, r2, forms, h1, h2, hf, h4, i4', by simpa using h6, me, by simpa using h7, ?_⟩
    simp only [i5']
    rfl
  · rintro ⟨r1, r2, forms, h1, h2, hf, h4, ha, hs, me, hm, hp⟩
    obtain ⟨i1, i2, i3, ⟨l4, i4, i4'⟩, ⟨l5, i5, i5'⟩⟩ := kinds_of_forms hf
    refine ⟨(u.name, r1), h1, (u.annotation, r2), h2, _, i1, (u.definition, rest), h4, l4, i4, u.symbol, ?_, me, ?_, l5, i5, ?_⟩
    · rw [uniqueOf_iff, i2, hs]
    · rw [uniqueOf_iff, i3, hm]
    · rw [if_pos (by rw [all_removed]; rfl)]
      simp only [Option.some.injEq, Prod.mk.injEq, and_true]
      obtain ⟨nm, sy, al, pr, an, df⟩ := u
      simp only at ha hp ⊢
      rw [ha, hp, i4', i5']
      rfl

theorem metricPrefixes_eq (skip : List Prefix) : metricPrefixes skip = Prefix.all.filter (· ∉ skip) := by
  unfold metricPrefixes
  apply List.filter_congr
  intro p _
  by_cases h : p ∈ skip <;> simp [h]

theorem parseDefinition_sound {rational : Bool} {bases : List Str} {ts rest : List Tok} {d : Definition ExpSyn Str Number} :
    parseDefinition rational bases ts = some (d, rest) → ∃ td, ts = td ++ rest ∧ match d with
      | .base x => bases = [x] ∧ td = []
      | .expression e => bases = [] ∧ ∃ te, WrittenExpr WrittenAtom rational e te ∧ td = .punct '=' :: te := by
  intro h
  unfold parseDefinition at h
  split at h
  · simp only [Option.bind_eq_bind, Option.bind_eq_some_iff] at h
    obtain ⟨⟨e, r⟩, h1, h2⟩ := h
    cases h2
    obtain ⟨pre, h3, rfl, -⟩ := (C05_iff _ _ _ _).1 h1
    exact ⟨.punct '=' :: pre, by simp, rfl, pre, h3, rfl⟩
  · cases h
  · cases h; exact ⟨[], rfl, rfl, rfl⟩
  · cases h

theorem parseDefinition_complete {rational : Bool} {bases : List Str} {td rest : List Tok} {d : Definition ExpSyn Str Number}
    (h : match d with
      | .base x => bases = [x] ∧ td = []
      | .expression e => bases = [] ∧ ∃ te, WrittenExpr WrittenAtom rational e te ∧ td = .punct '=' :: te)
    (hr : EndsAt ';' rest) : parseDefinition rational bases (td ++ rest) = some (d, rest) := by
  cases d with
  | base x =>
    obtain ⟨rfl, rfl⟩ := h
    rcases hr with rfl | ⟨l, rfl⟩ <;> simp [parseDefinition]
  | expression e =>
    obtain ⟨rfl, te, h1, rfl⟩ := h
    have := (C05_iff rational (te ++ rest) rest e).2 ⟨te, h1, rfl, hr⟩
    simp [parseDefinition, this]

theorem bare_of_droppable : ∀ {as : List Attr} {ta : List Tok}, WrittenAttrs (fun a c => parseAttribute c = some a) as ta →
    droppable as = true → ∃ names, WrittenAttrs WrittenBareAttr names ta
  | [], ta, h, _ => ⟨[], h⟩
  | a :: as, ta, h, hd => by
    obtain ⟨c, tl, h1, h2, rfl⟩ := h
    simp only [droppable, List.all_cons, Bool.and_eq_true] at hd
    obtain ⟨names, hn⟩ := bare_of_droppable h2 hd.2
    rw [parseAttribute_iff] at h1
    obtain ⟨nm, inner⟩ := a
    have hm : nm.keyword ∈ attributeNames := by cases nm <;> decide
    refine ⟨nm.keyword :: names, c, tl, ⟨hm, ?_⟩, hn, rfl⟩
    cases inner with
    | none => exact .inl h1
    | some i =>
      have : i = [] := by simpa using hd.1
      subst this
      exact .inr h1

theorem droppable_of_bare : ∀ {names : List Str} {ta : List Tok}, WrittenAttrs WrittenBareAttr names ta →
    ∃ as, WrittenAttrs (fun a c => parseAttribute c = some a) as ta ∧ droppable as = true
  | [], ta, h => ⟨[], h, rfl⟩
  | n :: names, ta, h => by
    obtain ⟨c, tl, ⟨h1, h2⟩, h3, rfl⟩ := h
    obtain ⟨as, i1, i2⟩ := droppable_of_bare h3
    obtain ⟨nm, rfl⟩ : ∃ nm : AttrName, n = nm.keyword := by
      simp only [attributeNames, List.mem_cons, List.not_mem_nil, or_false] at h1
      rcases h1 with rfl | rfl | rfl | rfl | rfl
      · exact ⟨.base, rfl⟩
      · exact ⟨.alias, rfl⟩
      · exact ⟨.symbol, rfl⟩
      · exact ⟨.metricPrefixes, rfl⟩
      · exact ⟨.prefix, rfl⟩
    rcases h2 with rfl | rfl
    · exact ⟨⟨nm, none⟩ :: as, ⟨_, tl, parseAttribute_iff.2 rfl, i1, rfl⟩, by simpa [droppable] using i2⟩
    · exact ⟨⟨nm, some []⟩ :: as, ⟨_, tl, parseAttribute_iff.2 rfl, i1, rfl⟩, by simpa [droppable] using i2⟩

theorem parseAttributes_ident {as : List Attr} {ta rest : List Tok} {k : Str} (h : WrittenAttrs (fun a c => parseAttribute c = some a) as ta) :
    parseAttributes (ta ++ .ident k :: rest) = some (as, .ident k :: rest) :=
  parseAttributes_complete as ta _ h (by rintro l ⟨⟩)

theorem parseEntry_sound {rational : Bool} {ts rest : List Tok} {e : Entry} (h : parseEntry rational ts = some (e, rest)) :
    ∃ pre, WrittenEntry rational e pre ∧ ts = pre ++ rest := by
  unfold parseEntry at h
  simp only [Option.bind_eq_bind, Option.bind_eq_some_iff] at h
  obtain ⟨⟨as, r⟩, h1, h⟩ := h
  obtain ⟨ta, hta, rfl, -⟩ := parseAttributes_sound _ _ _ h1
  simp only at h
  split at h
  · rename_i k r'
    split at h
    · rename_i hk; subst hk
      split at h
      · rename_i hd
        obtain ⟨names, hb⟩ := bare_of_droppable hta hd
        simp only [Option.bind_eq_some_iff] at h
        obtain ⟨⟨x, r2⟩, h2, h3⟩ := h
        cases h3
        obtain ⟨h4, rfl⟩ := parseIdent_iff.1 h2
        exact ⟨ta ++ [_, _], ⟨h4, names, ta, hb, rfl⟩, by simp⟩
      · cases h
    · split at h
      · rename_i hk; subst hk
        split at h
        · rename_i hd
          obtain ⟨names, hb⟩ := bare_of_droppable hta hd
          simp only [Option.bind_eq_some_iff] at h
          obtain ⟨⟨x, r2⟩, h2, h3⟩ := h
          cases h3
          obtain ⟨h4, rfl⟩ := parseIdent_iff.1 h2
          exact ⟨ta ++ [_, _], ⟨h4, names, ta, hb, rfl⟩, by simp⟩
        · cases h
      · split at h
        · rename_i hk; subst hk
          split at h
          · rename_i hd
            obtain ⟨names, hb⟩ := bare_of_droppable hta hd
            simp only [Option.bind_eq_some_iff] at h
            obtain ⟨⟨d, r2⟩, h2, h3⟩ := h
            cases h3
            simp only [parseDimension, Option.bind_eq_bind, Option.bind_eq_some_iff] at h2
            obtain ⟨⟨x, r3⟩, h4, h5⟩ := h2
            obtain ⟨h6, rfl⟩ := parseIdent_iff.1 h4
            simp only at h5
            split at h5
            · rename_i r4
              simp only [Option.bind_eq_some_iff] at h5
              obtain ⟨⟨ex, r5⟩, h7, h8⟩ := h5
              cases h8
              obtain ⟨pre, h9, rfl, -⟩ := (C05_dimension_iff _ _ _ _).1 h7
              exact ⟨ta ++ .ident (str!"dimension") :: .ident x :: .punct '=' :: pre,
                ⟨h6, .punct '=' :: pre, ⟨names, ta, hb, rfl⟩, pre, h9, rfl⟩, by simp⟩
            · cases h5
              exact ⟨ta ++ .ident (str!"dimension") :: [.ident x], ⟨h6, [], ⟨names, ta, hb, rfl⟩, rfl⟩, by simp⟩
          · cases h
        · split at h
          · rename_i hk; subst hk
            simp only [Option.bind_eq_some_iff] at h
            obtain ⟨⟨u, r2⟩, h2, h3⟩ := h
            cases h3
            obtain ⟨r3, r4, forms, h4, h5, h6, h7, h8, h9, me, h10, h11⟩ := parseUnit_iff.1 h2
            obtain ⟨h12, rfl⟩ := parseIdent_iff.1 h4
            obtain ⟨tn, h13, rfl⟩ := parseAnnotation_sound h5
            obtain ⟨td, rfl, h14⟩ := parseDefinition_sound h7
            refine ⟨ta ++ .ident (str!"unit") :: .ident u.name :: (tn ++ td), ⟨forms, ta, tn, td,
              writtenAttrs_form.2 ⟨as, hta, h6⟩, h12, h13, rfl, h8, h9, ⟨me, h10, ?_⟩, h14⟩, by simp⟩
            rw [h11]
            cases me with
            | none => rfl
            | some skip => simp only [metricPrefixes_eq]
          · split at h
            · rename_i hk; subst hk
              split at h
              · rename_i hd
                obtain ⟨names, hb⟩ := bare_of_droppable hta hd
                simp only [Option.bind_eq_some_iff] at h
                obtain ⟨⟨c, r2⟩, h2, h3⟩ := h
                cases h3
                simp only [parseConstant, Option.bind_eq_bind, Option.bind_eq_some_iff] at h2
                obtain ⟨⟨x, r3⟩, h4, ⟨an, r4⟩, h5, h6⟩ := h2
                obtain ⟨h7, rfl⟩ := parseIdent_iff.1 h4
                obtain ⟨tn, h8, rfl⟩ := parseAnnotation_sound h5
                simp only at h6
                split at h6
                · simp only [Option.bind_eq_some_iff] at h6
                  obtain ⟨⟨ex, r5⟩, h9, h10⟩ := h6
                  cases h10
                  obtain ⟨pre, h11, rfl, -⟩ := (C05_iff _ _ _ _).1 h9
                  exact ⟨ta ++ .ident (str!"constant") :: .ident x :: (tn ++ .punct '=' :: pre),
                    ⟨h7, tn, pre, h8, h11, names, ta, hb, rfl⟩, by simp⟩
                · cases h6
              · cases h
            · cases h
  · cases h

theorem endsAt_notColon {rest : List Tok} (h : EndsAt ';' rest) : ∀ l, rest ≠ .punct ':' :: l := by
  rintro l rfl
  rcases h with h | ⟨l', h⟩ <;> simp at h

theorem parseEntry_complete {rational : Bool} {pre rest : List Tok} {e : Entry} (h : WrittenEntry rational e pre) (hr : EndsAt ';' rest) :
    parseEntry rational (pre ++ rest) = some (e, rest) := by
  cases e with
  | quantityType x =>
    obtain ⟨h1, names, ta, h2, rfl⟩ := h
    obtain ⟨as, h3, h4⟩ := droppable_of_bare h2
    simp [parseEntry, parseAttributes_ident h3, h4, parseIdent_iff.2 ⟨h1, rfl⟩]
  | dimensionType x =>
    obtain ⟨h1, names, ta, h2, rfl⟩ := h
    obtain ⟨as, h3, h4⟩ := droppable_of_bare h2
    simp [parseEntry, parseAttributes_ident h3, h4, parseIdent_iff.2 ⟨h1, rfl⟩]
  | dimension d =>
    obtain ⟨name, rhs⟩ := d
    obtain ⟨h1, td, ⟨names, ta, h2, rfl⟩, h5⟩ := h
    simp only at h1 h5 ⊢
    obtain ⟨as, h3, h4⟩ := droppable_of_bare h2
    cases rhs with
    | base u =>
      simp only at h5
      subst h5
      rcases hr with rfl | ⟨l, rfl⟩ <;>
        simp [parseEntry, parseAttributes_ident h3, h4, parseDimension, parseIdent_iff.2 ⟨h1, rfl⟩]
    | expression e =>
      obtain ⟨te, h6, rfl⟩ := h5
      have := (C05_dimension_iff rational (te ++ rest) rest e).2 ⟨te, h6, rfl, hr⟩
      simp [parseEntry, parseAttributes_ident h3, h4, parseDimension, parseIdent_iff.2 ⟨h1, rfl⟩, this]
  | unit u =>
    obtain ⟨forms, ta, tn, td, h1, h2, h3, rfl, h5, h6, ⟨me, h7, h8⟩, h9⟩ := h
    obtain ⟨as, h10, h11⟩ := writtenAttrs_form.1 h1
    have hd := parseDefinition_complete (rational := rational) h9 hr
    have hcolon : ∀ l, td ++ rest ≠ .punct ':' :: l := by
      cases hdef : u.definition with
      | base d => rw [hdef] at h9; obtain ⟨-, rfl⟩ := h9; exact endsAt_notColon hr
      | expression e => rw [hdef] at h9; obtain ⟨-, te, -, rfl⟩ := h9; intro l hl; simp at hl
    have := (parseUnit_iff (rational := rational) (attrs := as) (ts := .ident u.name :: (tn ++ (td ++ rest))) (rest := rest) (u := u)).2
      ⟨_, _, forms, parseIdent_iff.2 ⟨h2, rfl⟩, parseAnnotation_complete h3 hcolon, h11, hd, h5, h6, me, h7, by
        rw [h8]
        cases me with
        | none => rfl
        | some skip => simp only [metricPrefixes_eq]⟩
    simp [parseEntry, parseAttributes_ident h10, this]
  | constant c =>
    obtain ⟨name, rhs, annotation⟩ := c
    obtain ⟨h1, tn, te, h5, h6, names, ta, h2, rfl⟩ := h
    simp only at h1 h5 h6
    obtain ⟨as, h3, h4⟩ := droppable_of_bare h2
    have ha := parseAnnotation_complete (rest := .punct '=' :: (te ++ rest)) h5 (by intro l hl; simp at hl)
    have := (C05_iff rational (te ++ rest) rest rhs).2 ⟨te, h6, rfl, hr⟩
    simp [parseEntry, parseAttributes_ident h3, h4, parseConstant, parseIdent_iff.2 ⟨h1, rfl⟩, ha, this]

theorem parseEntry_item (rational : Bool) : ItemParser (parseEntry rational) (WrittenEntry rational) ';' where
  sound := parseEntry_sound
  complete := parseEntry_complete
  nonempty := by
    intro e h
    have := parseEntry_complete h (.inl rfl : EndsAt ';' [])
    simp [parseEntry, parseAttributes] at this

end Diman
