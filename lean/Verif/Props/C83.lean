import Verif.Spec.RawIdent
import Verif.Model.MakeIdent
import Verif.Props.C09
import Mathlib.Tactic.IntervalCases
/-!
# C83 The macro can make the identifiers it needs
-/
set_option linter.unusedSectionVars false
namespace Diman

theorem letter_iff {c : Char} : isIdentStart c = true ↔ Letter c := by
  unfold isIdentStart Letter
  have e1 : c = '_' ↔ c.toNat = 95 := ⟨fun h => by subst h; rfl, fun h => Char.ext (UInt32.toNat_inj.1 h)⟩
  have e2 : ∀ a : Char, a ≤ c ↔ a.toNat ≤ c.toNat := fun a => Iff.rfl
  have e3 : ∀ a : Char, c ≤ a ↔ c.toNat ≤ a.toNat := fun a => Iff.rfl
  simp only [e1, e2, e3, Bool.or_eq_true, Bool.and_eq_true, decide_eq_true_eq, beq_iff_eq, or_assoc]
  rfl

theorem cont_iff {c : Char} : isIdentCont c = true ↔ Letter c ∨ ('0' ≤ c ∧ c ≤ '9') := by
  unfold isIdentCont isDigitChar
  rw [Bool.or_eq_true, letter_iff, Bool.and_eq_true, decide_eq_true_eq, decide_eq_true_eq]
  rfl

theorem identNew_some {x y : Str} : identNew x = some y ↔ PlainIdent x ∧ y = x := by
  cases x with
  | nil => simp [identNew, PlainIdent]
  | cons c s =>
    simp only [identNew]
    unfold PlainIdent
    split
    · rename_i h
      rw [Bool.and_eq_true, List.all_eq_true] at h
      simp only [letter_iff, cont_iff] at h
      simp only [Option.some.injEq, List.cons.injEq]
      exact ⟨fun e => ⟨⟨c, s, ⟨rfl, rfl⟩, h.1, h.2⟩, e.symm⟩, fun e => e.2.symm⟩
    · rename_i h
      rw [Bool.and_eq_true, List.all_eq_true] at h
      simp only [letter_iff, cont_iff] at h
      simp only [List.cons.injEq, reduceCtorEq, false_iff, not_and]
      rintro ⟨c', s', ⟨rfl, rfl⟩, h1, h2⟩
      exact absurd ⟨h1, h2⟩ h

theorem identNew_plain {x : Str} (h : PlainIdent x) : identNew x = some x := identNew_some.2 ⟨h, rfl⟩

theorem identNew_isSome {x : Str} : (identNew x).isSome = true ↔ PlainIdent x := by
  rw [Option.isSome_iff_exists]
  exact ⟨fun ⟨y, h⟩ => (identNew_some.1 h).1, fun h => ⟨x, identNew_plain h⟩⟩

theorem not_letter_hash : ¬ (Letter '#' ∨ ('0' ≤ '#' ∧ '#' ≤ '9')) := by
  unfold Letter; decide

/-- No identifier contains a `#`. -/
theorem PlainIdent.no_hash {x : Str} (h : PlainIdent x) : '#' ∉ x := by
  obtain ⟨c, s, rfl, h1, h2⟩ := h
  intro hm
  rcases List.mem_cons.1 hm with rfl | hm
  · exact not_letter_hash (.inl h1)
  · exact not_letter_hash (h2 _ hm)

theorem RawIdent.hash {x : Str} (h : RawIdent x) : '#' ∈ x := by
  obtain ⟨y, _, rfl⟩ := h
  exact List.mem_append_left _ (by decide)

theorem PlainIdent.append {x y : Str} (hx : PlainIdent x) (hy : PlainIdent y) : PlainIdent (x ++ y) := by
  obtain ⟨c, s, rfl, h1, h2⟩ := hx
  obtain ⟨d, t, rfl, h3, h4⟩ := hy
  refine ⟨c, s ++ d :: t, rfl, h1, fun e he => ?_⟩
  rcases List.mem_append.1 he with he | he
  · exact h2 e he
  · rcases List.mem_cons.1 he with rfl | he
    · exact .inl h3
    · exact h4 e he

theorem prefix_plain (p : Prefix) : PlainIdent p.name ∧ PlainIdent p.short := by
  have h : ∀ x : Str, (identNew x).isSome = true → PlainIdent x := fun x => identNew_isSome.1
  cases p <;> exact ⟨h _ (by decide +kernel), h _ (by decide +kernel)⟩

/-! ### Snake case -/

theorem splitInclusive_spec (p : Char → Bool) (s : Str) : ∀ acc : Str, (splitInclusive p acc s).flatten = acc.reverse ++ s ∧ ∀ w ∈ splitInclusive p acc s, w ≠ [] := by
  induction s with
  | nil =>
    intro acc
    unfold splitInclusive
    cases acc <;> simp
  | cons c s ih =>
    intro acc
    unfold splitInclusive
    split
    · obtain ⟨h1, h2⟩ := ih []
      refine ⟨by simp [h1], fun w hw => ?_⟩
      rcases List.mem_cons.1 hw with rfl | hw
      · simp
      · exact h2 w hw
    · obtain ⟨h1, h2⟩ := ih (c :: acc)
      exact ⟨by simp [h1], h2⟩

theorem joinWith_chars (sep : Str) : ∀ (ws : List Str) (d : Char), d ∈ joinWith sep ws → d ∈ sep ∨ d ∈ ws.flatten
  | [], d, h => by simp [joinWith] at h
  | [w], d, h => by simp only [joinWith] at h; exact .inr (by simpa using h)
  | w :: v :: ws, d, h => by
    simp only [joinWith, List.mem_append] at h
    rcases h with (h | h) | h
    · exact .inr (by simp [h])
    · exact .inl h
    · rcases joinWith_chars sep (v :: ws) d h with h | h
      · exact .inl h
      · exact .inr (by rw [List.flatten_cons, List.mem_append]; exact .inr h)

theorem mem_joinWith (sep : Str) : ∀ (ws : List Str) (d : Char), d ∈ ws.flatten → d ∈ joinWith sep ws
  | [], d, h => by simp at h
  | [w], d, h => by simpa [joinWith] using h
  | w :: v :: ws, d, h => by
    rw [List.flatten_cons, List.mem_append] at h
    simp only [joinWith, List.mem_append]
    rcases h with h | h
    · exact .inl (.inl h)
    · exact .inr (mem_joinWith sep (v :: ws) d h)

theorem joinWith_head (sep : Str) (c : Char) (w : Str) (ws : List Str) : ∃ r, joinWith sep ((c :: w) :: ws) = c :: r := by
  cases ws with
  | nil => exact ⟨w, rfl⟩
  | cons v ws => exact ⟨_, by simp only [joinWith, List.cons_append]; rfl⟩

/-- The words of the snake case, as written one after the other. -/
theorem snake_words (s : Str) : ∃ ws : List Str, toSnakecase s = joinWith ['_'] ws ∧ ws.flatten = s.map toLower ∧ ∀ w ∈ ws, w ≠ [] := by
  obtain ⟨h1, h2⟩ := splitInclusive_spec isUpper s.reverse []
  refine ⟨_, rfl, ?_, fun w hw => ?_⟩
  · generalize splitInclusive isUpper [] s.reverse = ps at h1
    have : ((ps.map (fun w => w.reverse.map toLower)).reverse).flatten = ps.flatten.reverse.map toLower := by
      clear h1
      induction ps with
      | nil => rfl
      | cons w ps ih => rw [List.map_cons, List.reverse_cons, List.flatten_append, ih]; simp
    rw [this, h1]; simp
  · simp only [List.mem_reverse, List.mem_map] at hw
    obtain ⟨v, hv, rfl⟩ := hw
    have := h2 v hv
    simpa using this

theorem toLower_upper {c : Char} (h : isUpper c = true) : 'a' ≤ toLower c ∧ toLower c ≤ 'z' := by
  have h' : 65 ≤ c.toNat ∧ c.toNat ≤ 90 := by simpa [isUpper] using h
  unfold toLower
  rw [if_pos h]
  have : ∀ n, 65 ≤ n → n ≤ 90 → 'a' ≤ Char.ofNat (n + 32) ∧ Char.ofNat (n + 32) ≤ 'z' := by
    intro n h1 h2
    interval_cases n <;> decide
  exact this _ h'.1 h'.2

theorem toLower_letter {c : Char} (h : Letter c) : Letter (toLower c) := by
  by_cases hu : isUpper c = true
  · exact .inl (toLower_upper hu)
  · unfold toLower; rwa [if_neg hu]

theorem toLower_cont {c : Char} (h : Letter c ∨ ('0' ≤ c ∧ c ≤ '9')) : Letter (toLower c) ∨ ('0' ≤ toLower c ∧ toLower c ≤ '9') := by
  by_cases hu : isUpper c = true
  · exact .inl (.inl (toLower_upper hu))
  · unfold toLower; rwa [if_neg hu]

theorem PlainIdent.snake {x : Str} (h : PlainIdent x) : PlainIdent (toSnakecase x) := by
  obtain ⟨c, s, rfl, h1, h2⟩ := h
  obtain ⟨ws, e, hf, hn⟩ := snake_words (c :: s)
  rw [e]
  have chars : ∀ d ∈ joinWith ['_'] ws, Letter d ∨ ('0' ≤ d ∧ d ≤ '9') := by
    intro d hd
    rcases joinWith_chars _ _ _ hd with hd | hd
    · simp only [List.mem_singleton] at hd
      subst hd
      exact .inl (.inr (.inr (.inl rfl)))
    · rw [hf] at hd
      obtain ⟨d', hd', rfl⟩ := List.mem_map.1 hd
      rcases List.mem_cons.1 hd' with rfl | hd'
      · exact toLower_cont (.inl h1)
      · exact toLower_cont (h2 _ hd')
  match ws, hf, hn, chars with
  | [], hf, _, _ => simp at hf
  | [] :: _, _, hn, _ => exact absurd rfl (hn [] (by simp))
  | (d :: w) :: ws, hf, _, chars =>
    obtain ⟨r, hr⟩ := joinWith_head ['_'] d w ws
    rw [hr] at chars ⊢
    refine ⟨d, r, rfl, ?_, fun e he => chars e (by simp [he])⟩
    simp only [List.map_cons, List.flatten_cons, List.cons_append, List.cons.injEq] at hf
    rw [hf.1]
    exact toLower_letter h1

theorem RawIdent.snake {x : Str} (h : RawIdent x) : ¬ PlainIdent (toSnakecase x) := fun hp => by
  obtain ⟨ws, e, hf, _⟩ := snake_words x
  refine hp.no_hash ?_
  rw [e]
  refine mem_joinWith _ _ _ ?_
  rw [hf]
  exact List.mem_map.2 ⟨'#', h.hash, by decide⟩

/-! ### Expansion -/

theorem mapM_outcome {α β : Type} {f : α → Option β} {g : α → β} (l : List α) (h : ∀ x ∈ l, f x = none ∨ f x = some (g x)) :
    (l.mapM f = none ∧ ∃ x ∈ l, f x = none) ∨ (l.mapM f = some (l.map g) ∧ ∀ x ∈ l, f x ≠ none) := by
  induction l with
  | nil => right; simp
  | cons x l ih =>
    rw [List.mapM_cons]
    rcases h x (by simp) with hx | hx
    · left; exact ⟨by simp [hx], x, by simp, hx⟩
    · rcases ih fun y hy => h y (by simp [hy]) with ⟨h1, y, hy, h2⟩ | ⟨h1, h2⟩
      · left; exact ⟨by simp [hx, h1], y, by simp [hy], h2⟩
      · right
        refine ⟨by simp [hx, h1], fun y hy => ?_⟩
        rcases List.mem_cons.1 hy with rfl | hy
        · simp [hx]
        · exact h2 y hy

section
variable {E M : Type}

/-- `Ident::new` refuses the name or the symbol of the unit with this prefix and this alias. -/
def UnitTemplate.Refused (u : UnitTemplate E M) (pre : Option Prefix) (al : Option Str) : Prop :=
  ∃ p, pre = some p ∧ (¬ PlainIdent (p.name ++ al.getD u.name) ∨ (al = none ∧ ∃ s, u.symbol = some s ∧ ¬ PlainIdent (p.short ++ s)))

theorem expandOneP_outcome (one : M) (factor : Prefix → M) (u : UnitTemplate E M) (pre : Option Prefix) (al : Option Str) :
    (u.expandOneP one factor pre al = none ∧ u.Refused pre al) ∨
      (u.expandOneP one factor pre al = some (u.expandOne one factor pre al) ∧ ¬ u.Refused pre al) := by
  have refuse : ∀ x, ¬ PlainIdent x → identNew x = none := fun x h => by
    cases e : identNew x with
    | none => rfl
    | some y => exact absurd (identNew_some.1 e).1 h
  unfold UnitTemplate.expandOneP UnitTemplate.expandOne UnitTemplate.formatNameP UnitTemplate.formatSymbolP UnitTemplate.formatName
    UnitTemplate.formatSymbol UnitTemplate.Refused
  cases pre with
  | none => right; cases al <;> simp
  | some p =>
    cases al with
    | some a =>
      by_cases h : PlainIdent (p.name ++ a)
      · right; simp [identNew_plain h, h]
      · left; simp [refuse _ h, h]
    | none =>
      by_cases h : PlainIdent (p.name ++ u.name)
      · cases hs : u.symbol with
        | none => right; simp [identNew_plain h, h]
        | some s =>
          by_cases h2 : PlainIdent (p.short ++ s)
          · right; simp [identNew_plain h, h, identNew_plain h2, h2]
          · left; simp [identNew_plain h, h, refuse _ h2, h2]
      · left; simp [refuse _ h, h]

theorem unit_expandP_outcome (one : M) (factor : Prefix → M) (u : UnitTemplate E M) :
    (u.expandP one factor = none ∧ ∃ pre ∈ u.prefixes.map some ++ [none], ∃ al ∈ u.aliases.map some ++ [none], u.Refused pre al) ∨
      (u.expandP one factor = some (u.expand one factor) ∧ ∀ pre ∈ u.prefixes.map some ++ [none], ∀ al ∈ u.aliases.map some ++ [none], ¬ u.Refused pre al) := by
  have inner : ∀ pre, ((u.aliases.map some ++ [none]).mapM (fun al => u.expandOneP one factor pre al) = none ∧
        ∃ al ∈ u.aliases.map some ++ [none], u.Refused pre al) ∨
      ((u.aliases.map some ++ [none]).mapM (fun al => u.expandOneP one factor pre al) =
        some ((u.aliases.map some ++ [none]).map fun al => u.expandOne one factor pre al) ∧ ∀ al ∈ u.aliases.map some ++ [none], ¬ u.Refused pre al) := by
    intro pre
    rcases mapM_outcome (g := fun al => u.expandOne one factor pre al) (u.aliases.map some ++ [none]) (fun al _ =>
      (expandOneP_outcome one factor u pre al).imp And.left And.left) with ⟨h1, al, h2, h3⟩ | ⟨h1, h2⟩
    · refine .inl ⟨h1, al, h2, ?_⟩
      rcases expandOneP_outcome one factor u pre al with ⟨_, h⟩ | ⟨h, _⟩
      · exact h
      · rw [h] at h3; simp at h3
    · refine .inr ⟨h1, fun al hal => ?_⟩
      rcases expandOneP_outcome one factor u pre al with ⟨h, _⟩ | ⟨_, h⟩
      · exact absurd h (h2 al hal)
      · exact h
  unfold UnitTemplate.expandP UnitTemplate.expand
  rcases mapM_outcome (g := fun pre => (u.aliases.map some ++ [none]).map fun al => u.expandOne one factor pre al) (u.prefixes.map some ++ [none])
    (fun pre _ => (inner pre).imp And.left And.left) with ⟨h1, pre, h2, h3⟩ | ⟨h1, h2⟩
  · refine .inl ⟨by rw [h1]; rfl, pre, h2, ?_⟩
    rcases inner pre with ⟨_, h⟩ | ⟨h, _⟩
    · exact h
    · rw [h] at h3; simp at h3
  · refine .inr ⟨by rw [h1, Option.map_some, List.flatMap], fun pre hpre => ?_⟩
    rcases inner pre with ⟨h, _⟩ | ⟨_, h⟩
    · exact absurd h (h2 pre hpre)
    · exact h

/-- `Ident::new` refuses some name, symbol or field. -/
def Unresolved.Refused (t : UnresolvedTemplates E M) : Prop :=
  (∃ u ∈ t.units, ∃ pre ∈ u.prefixes.map some ++ [none], ∃ al ∈ u.aliases.map some ++ [none], u.Refused pre al) ∨
    ∃ d ∈ t.dimensions, d.isBase = true ∧ ¬ PlainIdent (toSnakecase d.name)

variable [Exponent E] [MagOps E M]

theorem runIdents_outcome (factor : Prefix → M) (t : UnresolvedTemplates E M) :
    (runIdents factor t = none ∧ Unresolved.Refused t) ∨ (runIdents factor t = runUnitSystem factor t ∧ ¬ Unresolved.Refused t) := by
  have units := mapM_outcome (f := fun u : UnitTemplate E M => u.expandP (MagOps.one E) factor) (g := fun u => u.expand (MagOps.one E) factor) t.units
    fun u _ => (unit_expandP_outcome _ factor u).imp And.left And.left
  have dims := mapM_outcome (f := fun d : DimensionEntry E => identNew (toSnakecase d.name)) (g := fun d => toSnakecase d.name)
    (t.dimensions.filter DimensionEntry.isBase) fun d _ => by
      cases h : identNew (toSnakecase d.name) with
      | none => exact .inl rfl
      | some y => exact .inr (by rw [(identNew_some.1 h).2])
  unfold runIdents UnresolvedTemplates.expandP baseDimensionsP
  rcases units with ⟨h1, u, hu, h2⟩ | ⟨h1, h2⟩
  · refine .inl ⟨by simp [h1], .inl ⟨u, hu, ?_⟩⟩
    rcases unit_expandP_outcome (MagOps.one E) factor u with ⟨_, h⟩ | ⟨h, _⟩
    · exact h
    · rw [h] at h2; simp at h2
  · rcases dims with ⟨h3, d, hd, h4⟩ | ⟨h3, h4⟩
    · rw [List.mem_filter] at hd
      refine .inl ⟨by simp [h1, h3], .inr ⟨d, hd.1, hd.2, fun hp => ?_⟩⟩
      rw [identNew_plain hp] at h4
      simp at h4
    · refine .inr ⟨?_, ?_⟩
      · simp only [h1, h3, Option.bind_eq_bind, Option.bind_some, Option.pure_def]
        rfl
      · rintro (⟨u, hu, pre, hpre, al, hal, h⟩ | ⟨d, hd, hb, h⟩)
        · rcases unit_expandP_outcome (MagOps.one E) factor u with ⟨h', _⟩ | ⟨_, h'⟩
          · exact h2 u hu h'
          · exact h' pre hpre al hal h
        · have := h4 d (List.mem_filter.2 ⟨hd, hb⟩)
          rw [← Option.isSome_iff_ne_none, identNew_isSome] at this
          exact h this

/-- **C83.** When all identifiers can be made, the run is the one of the model without panics of `Ident::new`: all other theorems on accepted and refused systems hold
for it, whatever the names are. -/
theorem C83_sound (factor : Prefix → M) (t : UnresolvedTemplates E M) (r : Defs E M × List Diag) (run : runIdents factor t = some r) :
    runUnitSystem factor t = some r := by
  rcases runIdents_outcome factor t with ⟨h, _⟩ | ⟨h, _⟩
  · rw [h] at run; simp at run
  · rwa [← h]

theorem isBase_iff_rhs {d : DimensionEntry E} : d.isBase = true ↔ d.rhs = .base () := by
  unfold DimensionEntry.isBase
  cases d.rhs <;> simp

theorem refused_iff (t : UnresolvedTemplates E M) (h : t.Written fun x => PlainIdent x ∨ RawIdent x) : Unresolved.Refused t ↔ t.RawTrouble := by
  have key : ∀ {p x : Str}, PlainIdent p → PlainIdent x ∨ RawIdent x → (¬ PlainIdent (p ++ x) ↔ RawIdent x) := by
    intro p x hp hx
    refine ⟨fun hn => hx.resolve_left fun h => hn (hp.append h), fun hr hn => hn.no_hash (List.mem_append_right _ hr.hash)⟩
  constructor
  · rintro (⟨u, hu, pre, hpre, al, hal, p, rfl, hr⟩ | ⟨d, hd, hb, hr⟩)
    · obtain ⟨h1, h2, h3⟩ := h.units u hu
      have hp : p ∈ u.prefixes := by simpa using hpre
      refine .inl ⟨u, hu, List.ne_nil_of_mem hp, ?_⟩
      rcases hr with hr | ⟨_, s, hs, hr⟩
      · cases al with
        | none => exact .inl ((key (prefix_plain p).1 h1).1 hr)
        | some a =>
          have ha : a ∈ u.aliases := by simpa using hal
          exact .inr (.inl ⟨a, ha, (key (prefix_plain p).1 (h2 a ha)).1 hr⟩)
      · exact .inr (.inr ⟨s, hs, (key (prefix_plain p).2 (h3 s hs)).1 hr⟩)
    · have hb := isBase_iff_rhs.1 hb
      exact .inr ⟨d, hd, hb, (h.baseDimensions d hd hb).resolve_left fun hp => hr hp.snake⟩
  · rintro (⟨u, hu, hp, hr⟩ | ⟨d, hd, hb, hr⟩)
    · obtain ⟨h1, h2, h3⟩ := h.units u hu
      obtain ⟨p, hp⟩ := List.exists_mem_of_ne_nil _ hp
      refine .inl ⟨u, hu, some p, by simp [hp], ?_⟩
      rcases hr with hr | ⟨a, ha, hr⟩ | ⟨s, hs, hr⟩
      · exact ⟨none, by simp, p, rfl, .inl ((key (prefix_plain p).1 h1).2 hr)⟩
      · exact ⟨some a, by simp [ha], p, rfl, .inl ((key (prefix_plain p).1 (h2 a ha)).2 hr)⟩
      · exact ⟨none, by simp, p, rfl, .inr ⟨rfl, s, hs, (key (prefix_plain p).2 (h3 s hs)).2 hr⟩⟩
    · exact .inr ⟨d, hd, isBase_iff_rhs.2 hb, hr.snake⟩

/-- **C83, exactly when it panics.** With raw identifiers the macro panics in exactly two more cases than overflow: a unit that has prefixes has a raw name, alias or
symbol, or a base dimension has a raw name. -/
theorem C83_panics_iff (factor : Prefix → M) (t : UnresolvedTemplates E M) (identifiers : t.Written fun x => PlainIdent x ∨ RawIdent x) :
    runIdents factor t = none ↔ t.RawTrouble ∨ runUnitSystem factor t = none := by
  rw [← refused_iff t identifiers]
  rcases runIdents_outcome factor t with ⟨h, h'⟩ | ⟨h, h'⟩
  · simp [h, h']
  · rw [h]; simp [h']

/-- **C83, plain identifiers.** Without raw identifiers, every string the macro makes an identifier of is one. -/
theorem C83_plain (factor : Prefix → M) (t : UnresolvedTemplates E M) (identifiers : t.Written PlainIdent) :
    runIdents factor t = runUnitSystem factor t := by
  rcases runIdents_outcome factor t with ⟨_, h⟩ | ⟨h, _⟩
  · exfalso
    rw [refused_iff t ⟨fun u hu => (identifiers.units u hu).imp .inl (And.imp (fun h a ha => .inl (h a ha)) fun h s hs => .inl (h s hs)),
      fun d hd hb => .inl (identifiers.baseDimensions d hd hb)⟩] at h
    have no : ∀ {x}, PlainIdent x → ¬ RawIdent x := fun hp hr => hp.no_hash hr.hash
    rcases h with ⟨u, hu, _, hr⟩ | ⟨d, hd, hb, hr⟩
    · obtain ⟨h1, h2, h3⟩ := identifiers.units u hu
      rcases hr with hr | ⟨a, ha, hr⟩ | ⟨s, hs, hr⟩
      · exact no h1 hr
      · exact no (h2 a ha) hr
      · exact no (h3 s hs) hr
    · exact no (identifiers.baseDimensions d hd hb) hr
  · exact h

end

/-! ### The hypotheses are met -/
section
attribute [local instance] Sample.exactMag
open Sample

theorem plain_of {x : Str} (h : (identNew x).isSome = true) : PlainIdent x := identNew_isSome.1 h

-- The sample of C09 and others; by the theorem the macro makes all its identifiers.
example : ∃ defs, runIdents exactFactor sample = some (defs, []) := by
  obtain ⟨defs, h⟩ := sample_accepted
  refine ⟨defs, ?_⟩
  rw [C83_plain, h]
  refine ⟨fun u hu => ?_, fun d hd _ => ?_⟩
  · have : ∀ u ∈ (sample : UnresolvedTemplates Int ℚ).units, (identNew u.name).isSome = true ∧ (∀ a ∈ u.aliases, (identNew a).isSome = true) ∧
        ∀ s ∈ u.symbol, (identNew s).isSome = true := by decide +kernel
    obtain ⟨h1, h2, h3⟩ := this u hu
    exact ⟨plain_of h1, fun a ha => plain_of (h2 a ha), fun s hs => plain_of (h3 s hs)⟩
  · have : ∀ d ∈ (sample : UnresolvedTemplates Int ℚ).dimensions, (identNew d.name).isSome = true := by decide +kernel
    exact plain_of (this d hd)

/-- Inches, with the symbol `in`, which is a keyword. -/
def inches (prefixes : List Prefix) : UnresolvedTemplates Int ℚ where
  quantityTypes := [str!"Quantity"]
  dimensionTypes := [str!"Dimension"]
  dimensions := [⟨str!"Length", .base ()⟩]
  units := [baseUnit (str!"inches") (str!"r#in") (str!"Length") prefixes]
  constants := []

/-- **C83, an example.** A unit can have the symbol `r#in`, but then no prefixes (the symbol is then printed as `r#in`). -/
theorem C83_symbol_in : (∃ defs, runIdents exactFactor (inches []) = some (defs, [])) ∧ runIdents exactFactor (inches [.kilo]) = none := by
  have raw : RawIdent (str!"r#in") := ⟨str!"in", plain_of (by decide +kernel), rfl⟩
  have written : ∀ l, (inches l).Written fun x => PlainIdent x ∨ RawIdent x := fun l => by
    refine ⟨fun u hu => ?_, fun d hd _ => ?_⟩
    · simp only [inches, List.mem_singleton] at hu
      subst hu
      refine ⟨.inl (plain_of (by show (identNew (str!"inches")).isSome = true; decide +kernel)), fun a ha => by simp [baseUnit] at ha, fun s hs => ?_⟩
      simp only [baseUnit, Option.some.injEq] at hs
      subst hs
      exact .inr raw
    · simp only [inches, List.mem_singleton] at hd
      subst hd
      exact .inl (plain_of (by show (identNew (str!"Length")).isSome = true; decide +kernel))
  constructor
  · have h : ∃ r, runUnitSystem exactFactor (inches []) = some (r, []) := by
      have hf : (resolveDefsFuel (UnresolvedTemplates.expand 1 exactFactor (inches []))).map Prod.snd = some [] := by decide +kernel
      unfold runUnitSystem
      rw [resolveDefs_eq_fuel]
      obtain ⟨⟨d, ds⟩, h1, rfl⟩ := Option.map_eq_some_iff.1 hf
      exact ⟨d, h1⟩
    obtain ⟨r, h⟩ := h
    refine ⟨r, ?_⟩
    rcases runIdents_outcome exactFactor (inches []) with ⟨_, h'⟩ | ⟨h', _⟩
    · rw [refused_iff _ (written [])] at h'
      rcases h' with ⟨u, hu, hp, _⟩ | ⟨d, hd, _, y, _, hr⟩
      · simp only [inches, List.mem_singleton] at hu
        subst hu
        exact absurd rfl hp
      · simp only [inches, List.mem_singleton] at hd
        subst hd
        simp at hr
    · rw [h', h]
  · refine (C83_panics_iff exactFactor _ (written _)).2 (.inl (.inl ⟨_, List.mem_singleton.2 rfl, by simp [baseUnit], .inr (.inr ⟨_, rfl, raw⟩)⟩))

end
end Diman
