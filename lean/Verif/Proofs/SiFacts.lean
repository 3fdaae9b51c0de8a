import Verif.Props.C36
import Verif.Proofs.Text
import Verif.Spec.SiTable
/-!
# Facts about the SI module used together
The text of src/si.rs is accepted, its base dimensions are the seven SI ones, each has a base unit, symbols are words, and every generated
unit is a row of the SI table with a prefix.
-/
set_option linter.unusedSectionVars false
namespace Diman

/-- The fields of the generated dimension struct, in the order of src/si.rs. -/
def siBaseFields : List Str :=
  [str!"length", str!"time", str!"mass", str!"temperature", str!"current", str!"amount_of_substance", str!"luminous_intensity"]

/-- What is checked on the statements. -/
def siStatementsCheck (s : UnresolvedTemplates ExpSyn Number) : Bool :=
  decide (baseDimensions s.dimensions = siBaseFields) &&
  (s.dimensions.all fun d => !d.isBase || s.units.any fun v => match v.definition with
    | .base x => decide (x = d.name)
    | .expression _ => false) &&
  (s.units.all fun v => match v.symbol with
    | none => true
    | some x => !x.isEmpty && x.all fun c => !isWs c && !reservedChars.contains c)

/-- The check on the text of src/si.rs. -/
def siTextCheck (rational : Bool) : Bool :=
  match lex siLines with
  | none => false
  | some toks => match parseSystem rational toks with
    | none => false
    | some s => siStatementsCheck s

set_option maxRecDepth 1000000 in
theorem siTextCheck_both : ∀ rational, siTextCheck rational = true := by decide +kernel

section
variable {E M : Type} [Exponent E] [LawfulExponent E] [ReadExponent E] [MagOps E M]

theorem readDefinition_base {B C C' : Type} {f : C → C'} {d : Definition ExpSyn B C} {r : Definition E B C'}
    (h : readDefinition (E := E) f d = some r) (b : B) : r = .base b ↔ d = .base b := by
  cases d with
  | base x =>
    simp only [readDefinition, Option.some.injEq] at h
    subst h
    simp
  | expression e =>
    simp only [readDefinition, Option.map_eq_some_iff] at h
    obtain ⟨r', _, rfl⟩ := h
    simp

theorem dimension_isBase_iff {E : Type} {d : DimensionEntry E} : d.isBase = true ↔ d.rhs = .base () := by
  unfold DimensionEntry.isBase
  cases d.rhs <;> simp

theorem baseDimensions_read {ds : List (DimensionEntry ExpSyn)} {rs : List (DimensionEntry E)}
    (h : List.Forall₂ (fun d r => (readDefinition id d.rhs).map (DimensionEntry.mk d.name) = some r) ds rs) :
    baseDimensions rs = baseDimensions ds := by
  unfold baseDimensions
  induction h with
  | nil => rfl
  | @cons d r ds rs hd _ ih =>
    obtain ⟨x, hx, rfl⟩ := Option.map_eq_some_iff.1 hd
    have hb : (DimensionEntry.mk d.name x).isBase = d.isBase := by
      rw [Bool.eq_iff_iff, dimension_isBase_iff, dimension_isBase_iff]
      exact readDefinition_base hx ()
    simp only [List.filter_cons, hb]
    split
    · simp only [List.map_cons, ih]
    · exact ih

/-- What holds of the definitions `defs` generated from the text of src/si.rs (read as the statements `t`). -/
structure SiFacts (mag : Number → M) (factor : Prefix → M) (Value : Int → ℚ → M → Prop) (t : UnresolvedTemplates E M) (defs : Defs E M) :
    Prop where
  text : ∃ tokens, lex siLines = some tokens ∧ unitSystem mag factor tokens = .done (defs, [])
  read : ∃ tokens s, lex siLines = some tokens ∧ parseSystem (ReadExponent.rational E) tokens = some s ∧ readTemplates mag s = some t
  run : runUnitSystem factor t = some (defs, [])
  base : defs.baseDimensions = siBaseFields
  hasBase : ∀ d ∈ t.dimensions, d.rhs = .base () → ∃ v ∈ t.units, v.definition = .base d.name
  plain : t.PlainSymbols
  units : ∀ U ∈ defs.units, ∃ r ∈ siUnits, ∃ pre : Option Prefix, (∀ k, U.dims.expo k = r.dim.of k) ∧
    Value (siPrefix? pre).power r.value U.mag ∧ (U.symbol = none ∨ U.symbol = r.symbol.map ((siPrefix? pre).symbol ++ ·))
  names : ∃ statements : UnresolvedTemplates ExpSyn Number, (∀ r ∈ siUnits, ∃ u ∈ statements.units, u.name = r.name) ∧
    ∀ u ∈ statements.units, ∃ r ∈ siUnits, u.name = r.name ∧
      ∀ pre ∈ none :: u.prefixes.map some, ∀ base ∈ u.name :: u.aliases,
        ∃ U ∈ defs.units, U.name = (siPrefix? pre).name ++ base ∧ (∀ k, U.dims.expo k = r.dim.of k) ∧
          Value (siPrefix? pre).power r.value U.mag ∧
          (base = u.name → U.symbol = r.symbol.map ((siPrefix? pre).symbol ++ ·)) ∧ (base ≠ u.name → U.symbol = none)

theorem siPrefix?_name (pre : Option Prefix) : (match pre with | none => [] | some p => p.name) = (siPrefix? pre).name := by
  cases pre with
  | none => rfl
  | some p => cases p <;> rfl

variable [FieldOps E] [LawfulFieldOps E]

theorem si_facts {mag : Number → M} {factor : Prefix → M} {Value : Int → ℚ → M → Prop} (consistent : SiConsistent E M mag factor)
    (faithful : SiFaithful E M mag factor Value) : ∃ (t : UnresolvedTemplates E M) (defs : Defs E M), SiFacts mag factor Value t defs := by
  obtain ⟨tokens, s, defs, h1, h2, h3, -, h5, h6, -⟩ := consistent
  obtain ⟨tokens', s', defs', g1, g2, g3, -, -, g6, g7⟩ := faithful
  rw [h1, Option.some.injEq] at g1
  subst g1
  rw [h2, Option.some.injEq] at g2
  subst g2
  have e : defs = defs' := by
    rw [h3] at g3
    simpa using g3
  subst e
  have hn := siTextCheck_both (ReadExponent.rational E)
  unfold siTextCheck at hn
  rw [h1] at hn
  simp only [h2] at hn
  have h3' := h3
  unfold unitSystem at h3
  rw [h2] at h3
  simp only at h3
  cases hr : readTemplates (E := E) mag s with
  | none => rw [hr] at h3; simp at h3
  | some t =>
    rw [hr] at h3
    simp only at h3
    cases hu : runUnitSystem factor t with
    | none => rw [hu] at h3; simp at h3
    | some r =>
      rw [hu] at h3
      simp only [MacroResult.done.injEq] at h3
      subst h3
      simp only [siStatementsCheck, Bool.and_eq_true, decide_eq_true_eq, List.all_eq_true] at hn
      obtain ⟨⟨n1, n2⟩, n3⟩ := hn
      have hr' := hr
      simp only [readTemplates, Option.bind_eq_bind, Option.bind_eq_some_iff, pure, Option.some.injEq] at hr
      obtain ⟨ds, hds, us, hus, cs, hcs, rfl⟩ := hr
      have fd := mapM_option_some hds
      have fu := mapM_option_some hus
      obtain ⟨res, hacc⟩ := accepted_of_run hu
      refine ⟨_, defs, ⟨tokens, h1, h3'⟩, ⟨tokens, s, h1, h2, hr'⟩, hu, ?_, ?_, ?_, ?_, s, g7, g6⟩
      · rw [hacc.base_dims, ← n1]
        exact baseDimensions_read fd
      · intro d hd hb
        obtain ⟨a, ha, he⟩ := forall₂_mem_right fd hd
        obtain ⟨x, hx, rfl⟩ := Option.map_eq_some_iff.1 he
        have hab : a.isBase = true := dimension_isBase_iff.2 ((readDefinition_base hx ()).1 hb)
        have := n2 a ha
        rw [hab] at this
        simp only [Bool.not_true, Bool.false_or, List.any_eq_true] at this
        obtain ⟨v, hv, hv'⟩ := this
        obtain ⟨w, hw, hw'⟩ := forall₂_mem_left fu hv
        obtain ⟨y, hy, rfl⟩ := Option.map_eq_some_iff.1 hw'
        refine ⟨_, hw, ?_⟩
        cases hvd : v.definition with
        | expression e => rw [hvd] at hv'; simp at hv'
        | base x =>
          rw [hvd] at hv'
          simp only [decide_eq_true_eq] at hv'
          subst hv'
          exact (readDefinition_base hy _).2 hvd
      · intro v hv x hx
        obtain ⟨a, ha, he⟩ := forall₂_mem_right fu hv
        obtain ⟨y, hy, rfl⟩ := Option.map_eq_some_iff.1 he
        have := n3 a ha
        simp only at hx
        rw [hx] at this
        simp only [Bool.and_eq_true, Bool.not_eq_true', List.isEmpty_eq_false_iff, List.all_eq_true, List.contains_eq_mem, decide_eq_false_iff_not]
          at this
        exact ⟨this.1, this.2⟩
      · intro U hU
        obtain ⟨u, hu', pre, hpre, base, hbase, hname⟩ := h5 U hU
        obtain ⟨r, hr, -, hx⟩ := g6 u hu'
        obtain ⟨U', hU', e1, e2, e3, e4, e5⟩ := hx pre hpre base hbase
        have : U = U' := by
          refine List.inj_on_of_nodup_map h6 hU hU' ?_
          rw [hname, e1]
          exact congrArg (· ++ base) (siPrefix?_name pre)
        subst this
        refine ⟨r, hr, pre, e2, e3, ?_⟩
        by_cases hb : base = u.name
        · exact .inr (e4 hb)
        · exact .inl (e5 hb)
end
end Diman
