import Verif.Proofs.ParseStmt
import Verif.Props.C04
/-!
# C42 The unit_system! statement list is read completely and faithfully
-/
set_option linter.unusedSectionVars false
namespace Diman

/-- **C42.** The macro's input is read as the statements `t` if and only if it is a list of statements separated (or terminated) by `;`,
each written as the grammar says, whose statements of each kind, in source order, are those of `t`. For all token sequences. -/
theorem C42_iff (rational : Bool) (ts : List Tok) (t : UnresolvedTemplates ExpSyn Number) :
    parseSystem rational ts = some t ↔ ∃ l, Separated (WrittenEntry rational) ';' l ts ∧ Collects l t := by
  unfold parseSystem
  simp only [Option.bind_eq_bind, Option.bind_eq_some_iff, parseTerminated_iff (parseEntry_item rational) le_rfl, Option.some.injEq]
  constructor
  · rintro ⟨l, h, rfl⟩
    exact ⟨l, h, rfl, rfl, rfl, rfl, rfl⟩
  · rintro ⟨l, h, h1, h2, h3, h4, h5⟩
    refine ⟨l, h, ?_⟩
    obtain ⟨dt, qt, d, u, c⟩ := t
    simp only at h1 h2 h3 h4 h5
    subst h1 h2 h3 h4 h5
    rfl

/-- **C42.** A token sequence is the writing of at most one list of statements. -/
theorem C42_unique (rational : Bool) (ts : List Tok) (l l' : List Entry) (h : Separated (WrittenEntry rational) ';' l ts)
    (h' : Separated (WrittenEntry rational) ';' l' ts) : l = l' := by
  have e1 := (parseTerminated_iff (parseEntry_item rational) (le_refl ts.length)).2 h
  have e2 := (parseTerminated_iff (parseEntry_item rational) (le_refl ts.length)).2 h'
  rw [e1] at e2
  exact Option.some.inj e2

theorem separated_print {α : Type} {S : α → List Tok → Prop} {pr : α → List Tok} {sep : Char} :
    ∀ l : List α, (∀ a ∈ l, S a (pr a)) → Separated S sep l (printTerminated pr sep l)
  | [], _ => rfl
  | a :: l, h => ⟨pr a, printTerminated pr sep l, h a (List.mem_cons_self ..), separated_print l fun b hb => h b (List.mem_cons_of_mem _ hb),
      .inl (by simp [printTerminated])⟩

theorem printAnnotation_written {a : Option Str} (h : ∀ x, a = some x → IsIdent x) : WrittenAnnotation a (printAnnotation a) := by
  cases a with
  | none => rfl
  | some x => exact ⟨h x rfl, rfl⟩

theorem writtenAttrs_append {α : Type} {S : α → List Tok → Prop} : ∀ (l l' : List α) (t t' : List Tok),
    WrittenAttrs S l t → WrittenAttrs S l' t' → WrittenAttrs S (l ++ l') (t ++ t')
  | [], l', t, t', h, h' => by have h : t = [] := h; subst h; simpa using h'
  | a :: l, l', t, t', h, h' => by
    obtain ⟨c, tl, h1, h2, rfl⟩ := h
    exact ⟨c, tl ++ t', h1, writtenAttrs_append l l' tl t' h2 h', by simp⟩

theorem printEntry_written {rational : Bool} {e : Entry} (h : EntryOk rational e) : WrittenEntry rational e (printEntry e) := by
  have plain : ∀ body, Plain body body := fun body => ⟨[], [], rfl, rfl⟩
  cases e with
  | quantityType x => exact ⟨h, plain _⟩
  | dimensionType x => exact ⟨h, plain _⟩
  | dimension d =>
    obtain ⟨name, rhs⟩ := d
    obtain ⟨h1, h2⟩ := h
    cases rhs with
    | base u => exact ⟨h1, [], plain _, rfl⟩
    | expression e => exact ⟨h1, _, plain _, _, printExpr_written printDimensionAtom_written e h2, rfl⟩
  | constant c =>
    obtain ⟨h1, h2, h3⟩ := h
    exact ⟨h1, _, _, printAnnotation_written h2, printExpr_written printAtom_written c.rhs h3, plain _⟩
  | unit u =>
    obtain ⟨name, symbol, aliases, prefixes, annotation, definition⟩ := u
    obtain ⟨h1, h2, h3, h4, h5⟩ := h
    simp only at h1 h2 h3 h4 h5
    have ha : WrittenAttrs WrittenAttr [.alias aliases, .prefix prefixes]
        (printAttr [.ident (str!"alias"), .group .paren (printTerminated (fun x => [.ident x]) ',' aliases)] ++
          printAttr [.ident (str!"prefix"), .group .paren (printTerminated (fun p : Prefix => [.ident p.keyword]) ',' prefixes)]) :=
      ⟨_, _, ⟨_, separated_print aliases fun x hx => ⟨h3 x hx, rfl⟩, rfl⟩,
        ⟨_, [], ⟨_, separated_print prefixes fun p _ => rfl, rfl⟩, rfl, rfl⟩, rfl⟩
    obtain ⟨fs, ts, hs, hs1, hs2, hs3⟩ : ∃ fs : List AttrForm, ∃ ts, WrittenAttrs WrittenAttr fs ts ∧
        ts = (match symbol with
          | some s => printAttr [.ident (str!"symbol"), .group .paren [.ident s]]
          | none => []) ∧
        fs = (match symbol with
          | some s => [.symbol s]
          | none => []) ∧ True := by
      cases symbol with
      | none => exact ⟨[], [], rfl, rfl, rfl, trivial⟩
      | some s => exact ⟨[.symbol s], _, ⟨_, [], ⟨h2 s rfl, rfl⟩, rfl, rfl⟩, rfl, rfl, trivial⟩
    have hann := printAnnotation_written h4
    have hboth := writtenAttrs_append _ _ _ _ hs ha
    subst hs1 hs2
    cases definition with
    | base d =>
      have hb : WrittenAttrs WrittenAttr [.base d] (printAttr [.ident (str!"base"), .group .paren [.ident d]]) := ⟨_, [], ⟨h5, rfl⟩, rfl, rfl⟩
      have hall := writtenAttrs_append _ _ _ _ hb hboth
      refine ⟨_, _, _, [], hall, h1, hann, by cases symbol <;> simp [printEntry, printUnit], ?_, ?_, ⟨none, ?_, ?_⟩, ?_, rfl⟩
      all_goals cases symbol <;> simp [AttrForm.aliases, AttrForm.symbols, AttrForm.metrics, AttrForm.explicit, AttrForm.bases]
    | expression e =>
      refine ⟨_, _, _, .punct '=' :: printExpr printAtom e, hboth, h1, hann, by cases symbol <;> simp [printEntry, printUnit], ?_, ?_, ⟨none, ?_, ?_⟩, ?_, _,
        printExpr_written printAtom_written e h5, rfl⟩
      all_goals cases symbol <;> simp [AttrForm.aliases, AttrForm.symbols, AttrForm.metrics, AttrForm.explicit, AttrForm.bases]

/-- **C42.** Printing any list of statements and parsing it gives back exactly these statements: nothing is lost, invented or reordered within
a kind, whatever the number of statements and the size of their expressions. -/
theorem C42_print_parse (rational : Bool) (l : List Entry) (ok : ∀ e ∈ l, EntryOk rational e) :
    ∃ t, parseSystem rational (printSystem l) = some t ∧ Collects l t :=
  ⟨collectEntries l, (C42_iff rational _ _).2 ⟨l, separated_print l fun e he => printEntry_written (ok e he), rfl, rfl, rfl, rfl, rfl⟩,
    rfl, rfl, rfl, rfl, rfl⟩

/-- **C42.** The whole macro reports a syntax error exactly when its input is not a list of statements; otherwise the definitions it resolves are
those of the written statements, with numbers and exponents read. -/
theorem C42_macro {E M : Type} [ReadExponent E] [Exponent E] [MagOps E M] (mag : Number → M) (factor : Prefix → M) (ts : List Tok) :
    (unitSystem (E := E) mag factor ts = .syntaxError ↔ ¬∃ l, Separated (WrittenEntry (ReadExponent.rational E)) ';' l ts) ∧
    ∀ l t, Separated (WrittenEntry (ReadExponent.rational E)) ';' l ts → Collects l t →
      unitSystem (E := E) mag factor ts = match (readTemplates (E := E) mag t).bind (runUnitSystem factor) with
        | none => .panic
        | some r => .done r := by
  have second : ∀ l t, Separated (WrittenEntry (ReadExponent.rational E)) ';' l ts → Collects l t →
      unitSystem (E := E) mag factor ts = match (readTemplates (E := E) mag t).bind (runUnitSystem factor) with
        | none => .panic
        | some r => .done r := by
    intro l t h hc
    unfold unitSystem
    rw [(C42_iff _ ts t).2 ⟨l, h, hc⟩]
    cases h1 : readTemplates (E := E) mag t with
    | none => simp only [h1]; rfl
    | some t' =>
      simp only [h1, Option.bind_some]
      cases h2 : runUnitSystem factor t' <;> simp only
  refine ⟨?_, second⟩
  constructor
  · rintro h ⟨l, hl⟩
    rw [second l (collectEntries l) hl ⟨rfl, rfl, rfl, rfl, rfl⟩] at h
    split at h <;> cases h
  · intro h
    unfold unitSystem
    cases hp : parseSystem (ReadExponent.rational E) ts with
    | none => rfl
    | some t =>
      obtain ⟨l, hl, -⟩ := (C42_iff _ ts t).1 hp
      exact absurd ⟨l, hl⟩ h

/-- A system with a statement of every kind can be printed. -/
example : ∀ e ∈ [Entry.quantityType (str!"Q"), .dimensionType (str!"D"), .dimension ⟨str!"Length", .base ()⟩,
      .dimension ⟨str!"Area", .expression (.value (.power (.other (str!"Length")) ⟨2, none⟩))⟩,
      .unit ⟨str!"meter", some (str!"m"), [str!"metre"], [.kilo], none, .base (str!"Length")⟩,
      .unit ⟨str!"yard", some (str!"yd"), [], [], some (str!"Length"), .expression (.binary (.value (.value (.concrete (.float false 9144 (-4))))) .mul
        (.value (.other (str!"meter"))))⟩,
      .constant ⟨str!"FIELD", .binary (.value (.value (.concrete (.int 7140)))) .mul (.power (.other (str!"meter")) ⟨2, none⟩), some (str!"Area")⟩],
    EntryOk false e := by
  simp only [List.forall_mem_cons, EntryOk, ExprOk, FactorOk, AtomOk, DimensionAtomOk, ExponentOk, FitsI64, IsIdent, Option.some.injEq,
    List.not_mem_nil, false_implies, implies_true, and_true, reduceCtorEq, forall_eq', true_and]
  and_intros <;> decide

end Diman
