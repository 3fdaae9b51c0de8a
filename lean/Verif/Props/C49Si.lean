import Verif.Props.C49
import Verif.Props.C36
/-!
# C49 for the SI module
The code generated from the text of src/si.rs obeys Rust's scoping rules, in both builds, with every combination of features that adds or
removes generated modules.
-/
namespace Diman

/-- The names of the statements are ones that work. -/
def workingNamesCheck (s : UnresolvedTemplates ExpSyn Number) : Bool :=
  decide (s.quantityTypes = [str!"Quantity"]) && decide (s.dimensionTypes = [str!"Dimension"]) &&
  (s.dimensions.all fun d => decide (d.name ∉ [str!"Dimension", str!"Quantity", str!"Exponent"])) &&
  (s.units.all fun u => decide (u.name ≠ str!"Unit" ∧ str!"Unit" ∉ u.aliases)) &&
  (s.constants.all fun c => decide (c.name ≠ str!"Unit")) &&
  (s.dimensions.all fun d => s.dimensions.all fun e => decide (toSnakecase d.name = toSnakecase e.name → d.name = e.name)) &&
  (s.dimensions.all fun d => decide (toSnakecase d.name ∉ reservedWords))

theorem workingNames_of_check {E M : Type} [ReadExponent E] {mag : Number → M} {s : UnresolvedTemplates ExpSyn Number} {t : UnresolvedTemplates E M}
    (read : readTemplates mag s = some t) (h : workingNamesCheck s = true) : WorkingNames t := by
  simp only [workingNamesCheck, Bool.and_eq_true, decide_eq_true_eq, List.all_eq_true] at h
  obtain ⟨⟨⟨⟨⟨⟨h1, h2⟩, h3⟩, h4⟩, h5⟩, h6⟩, h7⟩ := h
  simp only [readTemplates, Option.bind_eq_bind, Option.bind_eq_some_iff, pure, Option.some.injEq] at read
  obtain ⟨ds, hds, us, hus, cs, hcs, rfl⟩ := read
  have fd := mapM_option_some hds
  have fu := mapM_option_some hus
  have fc := mapM_option_some hcs
  have hd : ∀ d ∈ ds, ∃ a ∈ s.dimensions, d.name = a.name := by
    intro d hd
    obtain ⟨a, ha, he⟩ := forall₂_mem_right fd hd
    obtain ⟨r, _, rfl⟩ := Option.map_eq_some_iff.1 he
    exact ⟨a, ha, rfl⟩
  refine ⟨h1, h2, ?_, ?_, ?_, ?_, ?_⟩
  · intro d hm
    obtain ⟨a, ha, e⟩ := hd d hm
    rw [e]; exact h3 a ha
  · intro u hu
    obtain ⟨a, ha, he⟩ := forall₂_mem_right fu hu
    obtain ⟨r, _, rfl⟩ := Option.map_eq_some_iff.1 he
    exact h4 a ha
  · intro c hc
    obtain ⟨a, ha, he⟩ := forall₂_mem_right fc hc
    obtain ⟨r, _, rfl⟩ := Option.map_eq_some_iff.1 he
    exact h5 a ha
  · intro d hm e hm' _ _
    obtain ⟨a, ha, e1⟩ := hd d hm
    obtain ⟨b, hb, e2⟩ := hd e hm'
    rw [e1, e2]; exact h6 a ha b hb
  · intro d hm _
    obtain ⟨a, ha, e⟩ := hd d hm
    rw [e]; exact h7 a ha

/-- The check on the text of src/si.rs. -/
def siNamesCheck (rational : Bool) : Bool :=
  match lex siLines with
  | none => false
  | some toks => match parseSystem rational toks with
    | none => false
    | some s => workingNamesCheck s

set_option maxRecDepth 1000000 in
theorem siNamesCheck_both : ∀ rational, siNamesCheck rational = true := by decide +kernel

/-- The text of src/si.rs is accepted, and the code generated from it obeys Rust's scoping rules, with every combination of features. -/
def SiLegal (E M : Type) [Exponent E] [FieldOps E] [ReadExponent E] [MagOps E M] (mag : Number → M) (factor : Prefix → M) : Prop :=
  ∃ tokens defs, lex siLines = some tokens ∧ unitSystem (E := E) mag factor tokens = .done (defs, []) ∧
    ∀ features, (emit features defs).Legal

theorem si_legal {E M : Type} [Exponent E] [FieldOps E] [LawfulExponent E] [ReadExponent E] [MagOps E M] (mag : Number → M) (factor : Prefix → M)
    (consistent : SiConsistent E M mag factor) : SiLegal E M mag factor := by
  obtain ⟨tokens, s, defs, h1, h2, h3, -⟩ := consistent
  refine ⟨tokens, defs, h1, h3, fun features => ?_⟩
  unfold unitSystem at h3
  rw [h2] at h3
  simp only at h3
  cases hr : readTemplates (E := E) mag s with
  | none => rw [hr] at h3; simp at h3
  | some t =>
    rw [hr] at h3
    simp only at h3
    cases hu : runUnitSystem factor t with
    | none => rw [hu] at h3; simp at h3
    | some r =>
      rw [hu] at h3
      simp only [MacroResult.done.injEq] at h3
      subst h3
      have hn := siNamesCheck_both (ReadExponent.rational E)
      unfold siNamesCheck at hn
      rw [h1] at hn
      simp only [h2] at hn
      exact (C49_legal_iff factor t defs hu (C49_identifiers mag tokens s t _ h2 hr) features).2 (workingNames_of_check hr hn)

/-- **C49, SI module, default build.** -/
theorem C49_si {M : Type} [MagOps Int M] (mag : Number → M) (factor : Prefix → M) : SiLegal Int M mag factor :=
  si_legal mag factor (C36_int mag factor)

/-- **C49, SI module, feature `rational-dimensions`.** -/
theorem C49_si_rational {M : Type} [MagOps Ratio M] (mag : Number → M) (factor : Prefix → M) : SiLegal Ratio M mag factor :=
  si_legal mag factor (C36_rational mag factor)

end Diman
