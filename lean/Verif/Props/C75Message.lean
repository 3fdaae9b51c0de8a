import Verif.Props.C75
import Verif.Props.C28
import Verif.Props.C29
import Verif.Props.C48
/-!
# C75 — bare numbers, wrong words and messages
-/
set_option linter.unusedSectionVars false
namespace Diman

section
variable {E K M : Type} [Exponent E] [LawfulExponent E] [FieldOps E] [LawfulFieldOps E] [WrittenExponent E] [MagOps E M]
  [Prims K M] [TextPrims K M]

/-- A bare number as it is printed in an error message. -/
inductive ShownNumber (M : Type) [TextPrims K M] : SerdeValue K → Str → Prop where
  | i64 (i) : ShownNumber M (.i64 i) (showInt i)
  | u64 (n) : ShownNumber M (.u64 n) (showNat n)
  | f64 (x) : ShownNumber M (.f64 x) (TextPrims.showF M .f64 x)

/-- **C75, bare numbers.** For a float quantity a bare number is refused exactly if the requested quantity has a dimension, and the error is the one that says so
and shows the number. -/
theorem C75_number_iff (defs : Defs E M) (describe : SerdeValue K → Str) (s : Storage) (float : s.isFloat = true) (target : DimVal E)
    (canonical : target.Canonical) (fields : target.length = defs.baseDimensions.length) (v : SerdeValue K) (shown : Str)
    (number : ShownNumber M v shown) (o : Reading E (Raw K)) (compiled : deserializeE M defs describe s target v = some o) (e : ReadError E) :
    o = .error e ↔ (∃ x ∈ target, LawfulExponent.val x ≠ 0) ∧ e = .bare shown := by
  have key : ∃ x, o = visitNumberE defs.baseDimensions.length target x shown := by
    cases number <;>
    · unfold deserializeE at compiled
      rw [bindM_eq_some] at compiled
      obtain ⟨_, _, compiled⟩ := compiled
      simp only [float, if_true, pure_eq_some] at compiled
      exact ⟨_, compiled.symm⟩
  obtain ⟨x, rfl⟩ := key
  have hd := dimensionless_iff canonical fields
  unfold visitNumberE
  split
  · rename_i h
    have := hd.1 h
    simp only [reduceCtorEq, false_iff, not_and, forall_exists_index]
    rintro x hx -
    exact absurd (this x hx.1) hx.2
  · rename_i h
    rw [hd] at h
    have h' : ∃ x ∈ target, LawfulExponent.val x ≠ 0 := by
      by_contra hc
      exact h fun x hx => by by_contra hne; exact hc ⟨x, hx, hne⟩
    simp only [Reading.error.injEq, h', true_and]
    exact eq_comm

/-- **C75, other values.** Whatever else is given (not a text, and for a float not a number) is refused with serde's message, which tells what was found and what
was expected. -/
theorem C75_other (defs : Defs E M) (describe : SerdeValue K → Str) (s : Storage) (target : DimVal E) (v : SerdeValue K)
    (other : v = .other ∨ s.isFloat = false ∧ ∀ text, v ≠ .str text) (o : Reading E (Raw K))
    (compiled : deserializeE M defs describe s target v = some o) : o = .error (.invalidType (describe v) (expecting s)) := by
  unfold deserializeE at compiled
  rw [bindM_eq_some] at compiled
  obtain ⟨_, _, compiled⟩ := compiled
  rcases other with rfl | ⟨hv, hs⟩
  · split at compiled <;> simpa [pure_eq_some] using compiled.symm
  · simp only [hv, Bool.false_eq_true, if_false] at compiled
    cases v with
    | str t => exact absurd rfl (hs t)
    | i64 _ | u64 _ | f64 _ | other => simpa [pure_eq_some] using compiled.symm

/-- **C75, what is expected.** The texts of serde's message for the storage types. -/
theorem C75_expected (s : Storage) : expecting s = match s with
    | .f32 | .f64 => str!"a numerical value followed by a series of powers of units"
    | .vec2 | .dvec2 => str!"two numerical values surrounded by () followed by a series of powers of units, e.g. (1.0 2.0) m s^-2"
    | .vec3 | .dvec3 => str!"three numerical values surrounded by () followed by a series of powers of units, e.g. (1.0 2.0) m s^-2" := by
  cases s <;> rfl

/-- **C75, the blame is right.** A word an error complains about cannot be saved: no text with this word in the place of a unit is accepted as a quantity of any
dimension, whatever the rest of the text. -/
theorem C75_blame (factor : Prefix → M) (t : UnresolvedTemplates E M) (defs : Defs E M)
    (accepted : runUnitSystem factor t = some (defs, []))
    (literals : (UnresolvedTemplates.expand (MagOps.one E) factor t).LitExponents (WrittenExponent.Ok : E → Prop))
    (w : Str) (e : ReadError E) (wrong : WordWrong defs w e) (describe : SerdeValue K → Str) (s : Storage) (float : s.isFloat = true) (target : DimVal E)
    (canonical : target.Canonical) (text num : Str) (ws : List Str) (words : Words text (num :: ws)) (mem : w ∈ ws) (r : Raw K) :
    deserializeE M defs describe s target (.str text) ≠ some (.ok r) := by
  intro hrun
  have h1 := C75_same_outcome defs describe s target (.str text) (K := K)
  rw [hrun] at h1
  have h2 := (C28_float_iff factor t defs accepted literals s float target canonical text _ (by rw [← deserialize]; exact h1.symm) (by simp)
    r).1 rfl
  obtain ⟨num', ws', hw, x, -, us, hn, -⟩ := h2
  have := splitWs_iff.2 words
  rw [splitWs_iff.2 hw] at this
  cases this
  clear words h1 hrun hw
  have hgood : ∃ u i U, UnitWord w u i ∧ U ∈ defs.units ∧ U.symbol = some u := by
    induction hn with
    | nil => simp at mem
    | cons h _ ih =>
      rcases List.mem_cons.1 mem with rfl | mem
      · obtain ⟨h1, sym, h2, h3⟩ := h; exact ⟨_, _, _, h3, h1, h2⟩
      · exact ih mem
  obtain ⟨u, i, U, hu, hU, hs⟩ := hgood
  have hcut : ∀ {a b u v : Str}, '^' ∉ a → '^' ∉ b → a ++ '^' :: u = b ++ '^' :: v → a = b ∧ u = v := fun h1 h2 h => append_cons_inj h1 h2 h
  cases wrong with
  | carets h =>
    rcases hu with ⟨h1, -, -⟩ | ⟨t, rfl, h1, h2, -⟩
    · rw [List.count_eq_zero.2 h1] at h; omega
    · have ht : '^' ∉ t := fun ht => by
        obtain ⟨n, h | ⟨cs, rfl, h, -⟩ | ⟨cs, rfl, h, -⟩⟩ := h2
        · obtain ⟨d, hd, he⟩ := digitText_chars h.1 ht
          exact (by decide : ∀ d < 10, '^' ≠ digitChar d) d hd he
        all_goals
          rcases List.mem_cons.1 ht with ht | ht
          · revert ht; decide
          · obtain ⟨d, hd, he⟩ := digitText_chars h ht
            exact (by decide : ∀ d < 10, '^' ≠ digitChar d) d hd he
      simp [List.count_append, List.count_eq_zero.2 h1, List.count_eq_zero.2 ht] at h
  | exponent h1 h2 h3 =>
    rcases hu with ⟨h, -, -⟩ | ⟨t, h, h4, h5, h6⟩
    · simp at h
    · obtain ⟨rfl, rfl⟩ := hcut h1 h4 h
      exact h3 ⟨_, h5, h6⟩
  | unknown h1 h2 =>
    have : ∀ {w u i u' i'}, UnitWord w u i → UnitWord w u' i' → u = u' := by
      rintro w u i u' i' (⟨h, rfl, -⟩ | ⟨t, rfl, h, -⟩) (⟨h', rfl, -⟩ | ⟨t', h', h'', -⟩)
      · rfl
      · rw [h'] at h; simp at h
      · simp at h'
      · exact (hcut h h'' h').1
    exact h2 U hU (by rw [hs, this hu h1])
end

/-! ## Messages -/

/-- The `Debug` text of an exponent can be read back when a comma or a blank follows. -/
class LawfulDebug (E : Type) [DebugExponent E] : Prop where
  cut : ∀ (a b : E) (c c' : Char) (r r' : Str), (c = ',' ∨ c = ' ') → (c' = ',' ∨ c' = ' ') →
    DebugExponent.debugE a ++ c :: r = DebugExponent.debugE b ++ c' :: r' → a = b ∧ c :: r = c' :: r'

theorem append_stop {α : Type} {p : α → Prop} {a a' b b' : List α} (ha : ∀ x ∈ a, p x) (ha' : ∀ x ∈ a', p x)
    (hb : ∀ x ∈ b.head?, ¬ p x) (hb' : ∀ x ∈ b'.head?, ¬ p x) (h : a ++ b = a' ++ b') : a = a' ∧ b = b' := by
  induction a generalizing a' with
  | nil =>
    cases a' with
    | nil => exact ⟨rfl, h⟩
    | cons x a' => simp only [List.nil_append, List.cons_append] at h; exact absurd (ha' x (by simp)) (hb x (by simp [h]))
  | cons x a ih =>
    cases a' with
    | nil => simp only [List.nil_append, List.cons_append] at h; exact absurd (ha x (by simp)) (hb' x (by simp [← h]))
    | cons y a' =>
      simp only [List.cons_append, List.cons.injEq] at h
      obtain ⟨h1, h2⟩ := ih (fun x hx => ha x (by simp [hx])) (fun x hx => ha' x (by simp [hx])) h.2
      exact ⟨by rw [h.1, h1], h2⟩

theorem showInt_cut {a b : Int} {c c' : Char} {r r' : Str} (hc : c = ',' ∨ c = ' ') (hc' : c' = ',' ∨ c' = ' ')
    (h : showInt a ++ c :: r = showInt b ++ c' :: r') : a = b ∧ c :: r = c' :: r' := by
  have hp : ∀ i : Int, ∀ x ∈ showInt i, x ≠ ',' ∧ x ≠ ' ' := by
    intro i x hx
    obtain ⟨h1, h2, -⟩ := showInt_chars hx
    exact ⟨fun e => h2 (by rw [e]; decide), fun e => by rw [e] at h1; revert h1; decide⟩
  have hs : ∀ {c : Char} {r : Str}, c = ',' ∨ c = ' ' → ∀ x ∈ (c :: r).head?, ¬ (x ≠ ',' ∧ x ≠ ' ') := by
    rintro c r h x hx ⟨h1, h2⟩
    simp at hx
    subst hx
    rcases h with h | h
    · exact h1 h
    · exact h2 h
  obtain ⟨h1, h2⟩ := append_stop (hp a) (hp b) (hs hc) (hs hc') h
  exact ⟨showInt_inj h1, h2⟩

instance : LawfulDebug Int := ⟨fun _ _ _ _ _ _ hc hc' h => showInt_cut hc hc' h⟩
instance : LawfulDebug Ratio := ⟨fun a b c c' r r' hc hc' h => by
  obtain ⟨n, d⟩ := a
  obtain ⟨n', d'⟩ := b
  simp only [DebugExponent.debugE, List.append_assoc] at h
  have h := List.append_cancel_left h
  obtain ⟨rfl, h1⟩ := showInt_cut (.inl rfl) (.inl rfl) h
  have h2 := List.append_cancel_left (as := str!", denom: ") h1
  obtain ⟨rfl, h3⟩ := showInt_cut (.inr rfl) (.inr rfl) h2
  exact ⟨rfl, List.append_cancel_left (as := str!" }") h3⟩⟩

section
variable {E : Type} [DebugExponent E] [LawfulDebug E]

theorem debugFields_cut {fields : List Str} {a b : DimVal E} (ha : a.length = fields.length) (hb : b.length = fields.length) {r r' : Str}
    (h : debugFields (fields.zip a) ++ ' ' :: r = debugFields (fields.zip b) ++ ' ' :: r') : a = b ∧ r = r' := by
  induction fields generalizing a b with
  | nil =>
    obtain rfl := List.length_eq_zero_iff.1 ha
    obtain rfl := List.length_eq_zero_iff.1 hb
    simpa [debugFields] using h
  | cons f fields ih =>
    obtain ⟨x, a, rfl⟩ := List.exists_cons_of_length_eq_add_one ha
    obtain ⟨y, b, rfl⟩ := List.exists_cons_of_length_eq_add_one hb
    cases fields with
    | nil =>
      obtain rfl := List.length_eq_zero_iff.1 (by simpa using ha)
      obtain rfl := List.length_eq_zero_iff.1 (by simpa using hb)
      simp only [List.zip_cons_cons, List.zip_nil_left, debugFields, debugField, List.append_assoc] at h
      have h := List.append_cancel_left (List.append_cancel_left h)
      obtain ⟨rfl, h3⟩ := LawfulDebug.cut _ _ _ _ _ _ (.inr rfl) (.inr rfl) h
      exact ⟨rfl, by simpa using h3⟩
    | cons g fields =>
      obtain ⟨x', a, rfl⟩ := List.exists_cons_of_length_eq_add_one (by simpa using ha)
      obtain ⟨y', b, rfl⟩ := List.exists_cons_of_length_eq_add_one (by simpa using hb)
      simp only [List.zip_cons_cons, debugFields, debugField, List.append_assoc] at h
      have h := List.append_cancel_left (List.append_cancel_left h)
      obtain ⟨rfl, h3⟩ := LawfulDebug.cut _ _ _ _ _ _ (.inl rfl) (.inl rfl) h
      have h4 := List.append_cancel_left (as := str!", ") h3
      obtain ⟨h1, h2⟩ := ih (a := x' :: a) (b := y' :: b) (by simpa using ha) (by simpa using hb) (by
        simpa only [List.zip_cons_cons, debugFields, debugField, List.append_assoc] using h4)
      exact ⟨by rw [h1], h2⟩

theorem debugDimension_cut {name : Str} {fields : List Str} {a b : DimVal E} (ha : a.length = fields.length) (hb : b.length = fields.length) {r r' : Str}
    (h : debugDimension name fields a ++ r = debugDimension name fields b ++ r') : a = b ∧ r = r' := by
  cases fields with
  | nil =>
    obtain rfl := List.length_eq_zero_iff.1 ha
    obtain rfl := List.length_eq_zero_iff.1 hb
    exact ⟨rfl, List.append_cancel_left h⟩
  | cons f fields =>
    obtain ⟨x, a, rfl⟩ := List.exists_cons_of_length_eq_add_one ha
    obtain ⟨y, b, rfl⟩ := List.exists_cons_of_length_eq_add_one hb
    unfold debugDimension at h
    simp only [List.zip_cons_cons, List.append_assoc] at h
    have h := List.append_cancel_left (List.append_cancel_left h)
    have := debugFields_cut (fields := f :: fields) (a := x :: a) (b := y :: b) ha hb (r := '}' :: r) (r' := '}' :: r') h
    exact ⟨this.1, by simpa using this.2⟩

/-- What holds of the errors for one storage type of one unit system. -/
def ReadError.WF (n : Nat) (s : Storage) : ReadError E → Prop
  | .mismatch needed given _ => needed.length = n ∧ given.length = n
  | .component _ cause _ => cause = str!"invalid float literal"
  | .count _ expected => expected = s.numDims
  | .invalidType _ x => x = expecting s
  | _ => True

theorem message_inj {name : Str} {fields : List Str} {s : Storage} {a b : ReadError E} (ha : a.WF fields.length s) (hb : b.WF fields.length s)
    (h : a.message name fields = b.message name fields) : a = b := by
  cases a <;> cases b <;>
    first
    | rfl
    | (exfalso; simp [ReadError.message] at h; done)
    | skip
  all_goals simp only [ReadError.message, List.append_assoc] at h
  all_goals have h := List.append_cancel_left h
  case number.number | badUnit.badUnit | exponent.exponent | unknownUnit.unknownUnit | bare.bare => rw [h]
  case mismatch.mismatch =>
    obtain ⟨rfl, h1⟩ := debugDimension_cut ha.1 hb.1 h
    have h2 := List.append_cancel_left h1
    obtain ⟨rfl, h3⟩ := debugDimension_cut ha.2 hb.2 h2
    rw [List.append_cancel_left h3]
  case count.count =>
    obtain rfl := ha
    obtain rfl := hb
    rw [← List.append_assoc, ← List.append_assoc] at h
    rw [showNat_inj (List.append_cancel_right (List.append_cancel_right h))]
  case component.component =>
    obtain rfl := ha
    obtain rfl := hb
    have hn : ∀ n, ':' ∉ showNat n := by
      intro n hc
      obtain ⟨d, hd, he⟩ := digitText_chars (showNat_text n) hc
      exact (by decide : ∀ d < 10, ':' ≠ digitChar d) d hd he
    obtain ⟨h1, h⟩ := append_cons_inj (hn _) (hn _) h
    have h := List.append_cancel_left (as := str!" ") h
    have h := List.append_cancel_left (List.append_cancel_left h)
    rw [showNat_inj h1, List.append_cancel_right h]
  case invalidType.invalidType =>
    obtain rfl := ha
    obtain rfl := hb
    rw [List.append_cancel_right h]
end

section
variable {E K M : Type} [Exponent E] [LawfulExponent E] [FieldOps E] [LawfulFieldOps E] [WrittenExponent E] [MagOps E M]
  [Prims K M] [TextPrims K M] [DebugExponent E] [LawfulDebug E]

theorem unitsWrong_wf {defs : Defs E M} {s : Storage} {target : DimVal E} (hn : target.length = defs.baseDimensions.length) {core : Str} {ws : List Str}
    {e : ReadError E} (h : UnitsWrong defs target core ws e) : e.WF defs.baseDimensions.length s := by
  cases h with
  | word _ h => cases h <;> trivial
  | dimension _ h =>
    refine ⟨hn, ?_⟩
    rw [← DimVal.vec_length, h]
    simp

theorem error_wf {factor : Prefix → M} {t : UnresolvedTemplates E M} {defs : Defs E M} (accepted : runUnitSystem factor t = some (defs, []))
    (literals : (UnresolvedTemplates.expand (MagOps.one E) factor t).LitExponents (WrittenExponent.Ok : E → Prop))
    {describe : SerdeValue K → Str} {s : Storage} {target : DimVal E} (hn : target.length = defs.baseDimensions.length) {v : SerdeValue K} {e : ReadError E}
    (run : deserializeE M defs describe s target v = some (.error e)) : e.WF defs.baseDimensions.length s := by
  have other : v = .other ∨ s.isFloat = false ∧ (∀ text, v ≠ .str text) → e.WF defs.baseDimensions.length s := by
    intro h
    have := C75_other defs describe s target v h _ run
    injection this with this
    subst this
    rfl
  cases hf : s.isFloat with
  | true =>
    cases v with
    | str text =>
      have h := (C75_float_iff factor t defs accepted literals describe s hf target text _ run (by simp) e).1 rfl
      cases h with
      | blank | number => trivial
      | units _ _ _ h => exact unitsWrong_wf hn h
    | other => exact other (.inl rfl)
    | i64 _ | u64 _ | f64 _ =>
      unfold deserializeE at run
      rw [bindM_eq_some] at run
      obtain ⟨_, _, run⟩ := run
      simp only [hf, if_true, pure_eq_some, visitNumberE] at run
      split at run
      · cases run
      · injection run with run; subst run; trivial
  | false =>
    cases v with
    | str text =>
      have h := (C75_vector_iff factor t defs accepted literals describe s hf target text _ run (by simp) e).1 rfl
      cases h with
      | noClosing | noOpening => trivial
      | count | component => rfl
      | units _ _ _ _ _ _ _ _ _ h => exact unitsWrong_wf hn h
    | other => exact other (.inl rfl)
    | i64 _ | u64 _ | f64 _ => exact other (.inr ⟨hf, by simp⟩)

/-- **C75, messages.** The message tells everything: two failures for quantities of one storage type with the same message are the same error, with the same word,
number, position, dimensions and text. -/
theorem C75_message (factor : Prefix → M) (t : UnresolvedTemplates E M) (defs : Defs E M) (accepted : runUnitSystem factor t = some (defs, []))
    (literals : (UnresolvedTemplates.expand (MagOps.one E) factor t).LitExponents (WrittenExponent.Ok : E → Prop))
    (name : Str) (fields : List Str) (named : fields.length = defs.baseDimensions.length) (describe : SerdeValue K → Str) (s : Storage)
    (target target' : DimVal E) (hn : target.length = fields.length) (hn' : target'.length = fields.length) (v v' : SerdeValue K) (e e' : ReadError E)
    (run : deserializeE M defs describe s target v = some (.error e)) (run' : deserializeE M defs describe s target' v' = some (.error e'))
    (same : e.message name fields = e'.message name fields) : e = e' := by
  have h := error_wf accepted literals (named ▸ hn) run
  have h' := error_wf accepted literals (named ▸ hn') run'
  rw [← named] at h h'
  exact message_inj h h' same
end

/-! ## Concrete runs -/
namespace C75
open Sample
attribute [local instance] Sample.exactMag Sample.ratPrims Sample.ratText

/-- The message of the error for a text in the sample unit system, read as `s` of dimension `target`; serde describes nothing. -/
def messageOf (defs : Defs Int ℚ) (s : Storage) (target : DimVal Int) (text : Str) : Option Str :=
  match (deserializeE ℚ defs (fun _ => []) s target (.str text) : Option (Reading Int (Raw ℚ))) with
  | some (.error e) => some (e.message (str!"Dimension") [str!"length", str!"time", str!"mass", str!"temperature"])
  | _ => none

/-- A text, how it is read, and what the error says. -/
def runs : List (Storage × DimVal Int × Str × Str) := [
  (.f64, [1, 0, 0, 0], str!"  ", str!"unable to parse empty string"),
  (.f64, [1, 0, 0, 0], str!"m 5", str!"unable to parse numerical value m"),
  (.f64, [1, 0, 0, 0], str!"5 m^2^3", str!"invalid unit string: m^2^3"),
  (.f64, [1, 0, 0, 0], str!"5 m foo m^x", str!"unknown unit: foo"),
  (.f64, [1, 0, 0, 0], str!"5 m^x foo", str!"unable to parse unit exponent: x"),
  (.f64, [0, 1, 0, 0], str!" 5 m^2 ", str!"mismatch in dimensions: needed: Dimension { length: 0, time: 1, mass: 0, temperature: 0 } given: Dimension { length: 2, time: 0, mass: 0, temperature: 0 } in string: 5 m^2"),
  (.vec2, [1, 0, 0, 0], str!"(1 2 m", str!"No closing bracket in vector string"),
  (.vec2, [1, 0, 0, 0], str!"1 2) m", str!"No opening bracket in vector string"),
  (.vec2, [1, 0, 0, 0], str!"(1 2 3) m", str!"found 3 substrings in brackets, expected 2"),
  (.vec3, [1, 0, 0, 0], str!"(1 x 3) foo", str!"While parsing component 1: invalid float literal, 'x'"),
  (.dvec3, [1, 0, 0, 0], str!"(1 2 3) m foo", str!"unknown unit: foo")]

example : ∃ defs, runUnitSystem exactFactor sample = some (defs, []) ∧
    (runs.all fun r => messageOf defs r.1 r.2.1 r.2.2.1 == some r.2.2.2) = true := by
  obtain ⟨defs, hd⟩ := sample_accepted
  refine ⟨defs, hd, ?_⟩
  have h : (resolveDefsFuel (UnresolvedTemplates.expand 1 exactFactor sample)).any (fun p =>
    (runs.all fun r => messageOf p.1 r.1 r.2.1 r.2.2.1 == some r.2.2.2)) = true := by decide +kernel
  have hr : resolveDefs (UnresolvedTemplates.expand 1 exactFactor sample) = some (defs, []) := hd
  rw [resolveDefs_eq_fuel] at hr
  rw [hr] at h
  simpa using h
end C75
end Diman
