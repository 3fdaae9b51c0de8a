import Verif.Props.C83
import Verif.Props.C49
import Verif.Model.InvokeIdents
import Verif.Spec.OccursIn
/-!
# C83, from the tokens
-/
namespace Diman

theorem mentions_left {x : Str} {a b : List Tok} (h : OccursIn x a) : OccursIn x (a ++ b) := by
  induction h with
  | here => exact .here
  | inside h _ => exact .inside h
  | later _ ih => exact .later ih

theorem mentions_right {x : Str} {a b : List Tok} (h : OccursIn x b) : OccursIn x (a ++ b) := by
  induction a with
  | nil => exact h
  | cons t a ih => exact .later ih

theorem mentions_sublist {x : Str} {a b c : List Tok} (h : OccursIn x b) : OccursIn x (a ++ (b ++ c)) := mentions_right (mentions_left h)

/-- Each item's tokens are among those of the whole. -/
theorem separated_mentions {α : Type} {S : α → List Tok → Prop} {sep : Char} {l : List α} {ts : List Tok} (h : Separated S sep l ts)
    {a : α} (ha : a ∈ l) : ∃ ta, S a ta ∧ ∀ x, OccursIn x ta → OccursIn x ts := by
  induction l generalizing ts with
  | nil => simp at ha
  | cons b l ih =>
    obtain ⟨ta, tl, h1, h2, h3⟩ := h
    rcases List.mem_cons.1 ha with rfl | ha
    · refine ⟨_, h1, fun x hx => ?_⟩
      rcases h3 with rfl | ⟨_, rfl⟩
      · exact mentions_left hx
      · exact hx
    · obtain ⟨tb, hb, hb'⟩ := ih h2 ha
      refine ⟨tb, hb, fun x hx => ?_⟩
      rcases h3 with rfl | ⟨rfl, rfl⟩
      · exact mentions_right (.later (hb' x hx))
      · simp at ha

theorem attrs_mentions {as : List AttrForm} {ts : List Tok} (h : WrittenAttrs WrittenAttr as ts) {a : AttrForm} (ha : a ∈ as) :
    ∃ c, WrittenAttr a c ∧ ∀ x, OccursIn x c → OccursIn x ts := by
  induction as generalizing ts with
  | nil => simp at ha
  | cons b as ih =>
    obtain ⟨c, tl, hb, htl, rfl⟩ := h
    rcases List.mem_cons.1 ha with rfl | ha
    · exact ⟨c, hb, fun x hx => .later (.inside hx)⟩
    · obtain ⟨c', h1, h2⟩ := ih htl ha
      exact ⟨c', h1, fun x hx => .later (.later (h2 x hx))⟩

theorem plain_mentions {x : Str} {body ts : List Tok} (h : Plain body ts) (hx : OccursIn x body) : OccursIn x ts := by
  obtain ⟨_, ta, _, rfl⟩ := h
  exact mentions_right hx

/-- Names, aliases, symbols are identifiers of the invocation, so they satisfy what those satisfy. -/
theorem written_of_mentions {E M : Type} [ReadExponent E] {P : Str → Prop} (mag : Number → M) (ts : List Tok) (s : UnresolvedTemplates ExpSyn Number)
    (t : UnresolvedTemplates E M) (rational : Bool) (parsed : parseSystem rational ts = some s)
    (read : readTemplates mag s = some t) (idents : ∀ x, OccursIn x ts → P x) : t.Written P := by
  obtain ⟨l, hl, hc⟩ := (C42_iff rational ts s).1 parsed
  have hmem : ∀ e ∈ l, ∃ te, WrittenEntry rational e te ∧ ∀ x, OccursIn x te → OccursIn x ts := fun e he => separated_mentions hl he
  simp only [readTemplates, Option.bind_eq_bind, Option.bind_eq_some_iff, pure, Option.some.injEq] at read
  obtain ⟨ds, hds, us, hus, cs, hcs, rfl⟩ := read
  have fd := mapM_option_some hds
  have fu := mapM_option_some hus
  refine ⟨fun u hu => ?_, fun d hd _ => ?_⟩
  · obtain ⟨a, ha, he⟩ := forall₂_mem_right fu hu
    obtain ⟨r, _, rfl⟩ := Option.map_eq_some_iff.1 he
    rw [← hc.units, List.mem_filterMap] at ha
    obtain ⟨e, he, hee⟩ := ha
    obtain ⟨te, hte, hin⟩ := hmem e he
    cases e <;> simp at hee
    subst hee
    obtain ⟨as, ta, tn, td, h1, _, _, rfl, h5, h6, _⟩ := hte
    refine ⟨idents _ (hin _ (mentions_right (.later .here))), fun x hx => ?_, fun x hx => ?_⟩
    · rw [h5] at hx
      obtain ⟨b, hb, hx⟩ := List.mem_flatMap.1 hx
      obtain ⟨c, hc, hin'⟩ := attrs_mentions h1 hb
      cases b <;> simp at hx
      obtain ⟨cc, hsep, rfl⟩ := hc
      obtain ⟨_, ⟨_, rfl⟩, hin''⟩ := separated_mentions hsep hx
      exact idents _ (hin _ (mentions_left (hin' _ (.later (.inside (hin'' _ .here))))))
    · have hx : x ∈ AttrForm.symbols as := by rw [h6]; simp_all
      obtain ⟨b, hb, hx⟩ := List.mem_filterMap.1 hx
      obtain ⟨c, hc, hin'⟩ := attrs_mentions h1 hb
      cases b <;> simp at hx
      subst hx
      obtain ⟨_, rfl⟩ := hc
      exact idents _ (hin _ (mentions_left (hin' _ (.later (.inside .here)))))
  · obtain ⟨a, ha, he⟩ := forall₂_mem_right fd hd
    obtain ⟨r, _, rfl⟩ := Option.map_eq_some_iff.1 he
    rw [← hc.dimensions, List.mem_filterMap] at ha
    obtain ⟨e, he, hee⟩ := ha
    obtain ⟨te, hte, hin⟩ := hmem e he
    cases e <;> simp at hee
    subst hee
    obtain ⟨_, td, hp, _⟩ := hte
    exact idents _ (hin _ (plain_mentions hp (.later .here)))

section
variable {E M : Type} [ReadExponent E] [Exponent E] [MagOps E M]

/-- **C83, for every invocation.** Whatever tokens the macro is invoked with, if no identifier among them is raw, making identifiers never panics: the outcome is that
of the model without these panics, which the other theorems are about. -/
theorem C83_tokens (mag : Number → M) (factor : Prefix → M) (ts : List Tok) (idents : ∀ x, OccursIn x ts → PlainIdent x) :
    unitSystemIdents (E := E) mag factor ts = unitSystem mag factor ts := by
  unfold unitSystemIdents unitSystem
  cases hp : parseSystem (ReadExponent.rational E) ts with
  | none => rfl
  | some s =>
    cases hr : readTemplates (E := E) mag s with
    | none => simp [hr]
    | some t => simp only [hr]; rw [C83_plain factor t (written_of_mentions mag ts s t _ hp hr idents)]; cases runUnitSystem factor t <;> rfl

/-- **C83, for every invocation with raw identifiers.** Every identifier of Rust is plain or raw; then the outcome is that of the model without panics of `Ident::new`,
or a panic because of a prefixed unit or a base dimension with a raw name. -/
theorem C83_tokens_raw (mag : Number → M) (factor : Prefix → M) (ts : List Tok) (idents : ∀ x, OccursIn x ts → PlainIdent x ∨ RawIdent x) :
    unitSystemIdents (E := E) mag factor ts = unitSystem mag factor ts ∨
      unitSystemIdents (E := E) mag factor ts = .panic ∧ ∃ s t, parseSystem (ReadExponent.rational E) ts = some s ∧
        readTemplates (E := E) mag s = some t ∧ t.RawTrouble := by
  unfold unitSystemIdents unitSystem
  cases hp : parseSystem (ReadExponent.rational E) ts with
  | none => exact .inl rfl
  | some s =>
    cases hr : readTemplates (E := E) mag s with
    | none => exact .inl (by simp [hr])
    | some t =>
      simp only [hr]
      rcases runIdents_outcome factor t with ⟨h1, h2⟩ | ⟨h1, _⟩
      · exact .inr ⟨by rw [h1], s, t, rfl, hr, (refused_iff t (written_of_mentions mag ts s t _ hp hr idents)).1 h2⟩
      · exact .inl (by rw [h1]; cases runUnitSystem factor t <;> rfl)

end

/-! ### The hypotheses are met -/
section
attribute [local instance] Sample.exactMag

/-- `quantity_type Q; dimension_type D; dimension Length; #[base(Length)] #[symbol(...)] #[prefix(...)] unit inches;` -/
def inchTokens (symbol : Str) (prefixes : List Tok) : List Tok :=
  [.ident (str!"quantity_type"), .ident (str!"Q"), .punct ';', .ident (str!"dimension_type"), .ident (str!"D"), .punct ';',
   .ident (str!"dimension"), .ident (str!"Length"), .punct ';',
   .punct '#', .group .bracket [.ident (str!"base"), .group .paren [.ident (str!"Length")]],
   .punct '#', .group .bracket [.ident (str!"symbol"), .group .paren [.ident symbol]],
   .punct '#', .group .bracket [.ident (str!"prefix"), .group .paren prefixes],
   .ident (str!"unit"), .ident (str!"inches"), .punct ';']

/-- Accepted without errors. -/
def MacroResult.clean {D : Type} : MacroResult (D × List Diag) → Bool
  | .done (_, []) => true
  | _ => false

/-- The outcome for a symbol and prefixes (there are no numbers in the tokens). -/
def inchRun (symbol : Str) (prefixes : List Tok) : MacroResult (Defs Int ℚ × List Diag) :=
  unitSystemIdents (fun _ => (1 : ℚ)) Sample.exactFactor (inchTokens symbol prefixes)

-- Plain identifiers, a prefix: accepted, also when identifiers are really made; the theorem applies.
example : (inchRun (str!"inch") [.ident (str!"kilo")]).clean = true ∧
    inchRun (str!"inch") [.ident (str!"kilo")] = unitSystem (fun _ => (1 : ℚ)) Sample.exactFactor (inchTokens (str!"inch") [.ident (str!"kilo")]) := by
  refine ⟨by decide +kernel, C83_tokens _ _ _ fun x h => ?_⟩
  unfold inchTokens at h
  repeat' first | exact plain_of (by decide +kernel) | cases ‹OccursIn _ _›

/-- Panicked. -/
def MacroResult.panicked {D : Type} : MacroResult D → Bool
  | .panic => true
  | _ => false

-- With the symbol `r#in` the other case of C83_tokens_raw occurs, if there are prefixes.
example : (inchRun (str!"r#in") []).clean = true ∧ (inchRun (str!"r#in") [.ident (str!"kilo")]).panicked = true := by decide +kernel

end
end Diman
