import Verif.Props.C80
import Verif.Props.C36
/-!
# C80 on src/si.rs
The unit system that comes with diman is well formed: a large instance of `C80_macro_exactly`.
-/
set_option linter.unusedSectionVars false
namespace Diman

/-- **C80, src/si.rs.** The statements of the `si` module are a well-formed unit system, and their equations have a solution in the range of `i64`; it gives every
unit of the module the exponents that are generated for it. -/
theorem C80_si {M : Type} [MagOps Int M] (mag : Number → M) (factor : Prefix → M) :
    ∃ tokens l statements t defs ρ, lex siLines = some tokens ∧ Separated (WrittenEntry false) ';' l tokens ∧ Collects l statements ∧
      readTemplates (E := Int) mag statements = some t ∧ t.WellFormed ∧ t.Balanced ρ ∧ t.Fits ρ ∧
      unitSystem (E := Int) mag factor tokens = .done (defs, []) ∧ ∀ U ∈ defs.units, ∀ k, U.dims.expo k = ρ U.name k := by
  obtain ⟨tokens, _, defs, h1, -, h3, -⟩ := C36_int (M := M) mag factor
  obtain ⟨l, statements, t, i1, i2, i3, w, ρ, hb, hf⟩ := (C80_macro_exactly mag factor tokens).1 ⟨defs, h3⟩
  refine ⟨tokens, l, statements, t, defs, ρ, h1, i1, i2, i3, w, hb, hf, h3, ?_⟩
  have run : runUnitSystem factor t = some (defs, []) := by
    have h0 := (C42_iff (ReadExponent.rational Int) tokens statements).2 ⟨l, i1, i2⟩
    unfold unitSystem at h3
    rw [h0] at h3
    simp only [i3] at h3
    cases hr : runUnitSystem factor t with
    | none => rw [hr] at h3; simp at h3
    | some r => rw [hr] at h3; simp only [MacroResult.done.injEq] at h3; rw [h3]
  obtain ⟨ρ', hb', -, hU, -⟩ := C80_solution factor t defs run (canonicalExponents_int t)
  intro U hU' k
  rw [hU U hU' k]
  obtain ⟨res, hacc⟩ := accepted_of_run run
  obtain ⟨x, hx, dm, g, rfl⟩ := hacc.unit_from hU'
  refine C80_unique t w ρ' ρ hb' hb _ k ?_
  obtain ⟨v, hv, hxv⟩ := List.mem_flatMap.1 (show x ∈ t.units.flatMap (fun v => v.expand (MagOps.one Int) factor) from hx)
  exact mem_written.2 (.inr (.inl ⟨v, hv, (mem_expand_name (one := MagOps.one Int) (factor := factor)).1 ⟨x, hxv, rfl⟩⟩))

/-- No exponent written in src/si.rs has a denominator that is zero or negative. -/
def siDenominators : Bool :=
  match lex siLines with
  | none => false
  | some toks => match parseSystem (ReadExponent.rational Ratio) toks with
    | none => false
    | some t => t.exponents.all fun x => decide (0 < x.denom.getD 1)

set_option maxRecDepth 1000000 in
theorem siDenominators_ok : siDenominators = true := by decide +kernel

/-- **C80, src/si.rs, rational exponents.** The same with the feature `rational-dimensions`. -/
theorem C80_si_rational {M : Type} [MagOps Ratio M] (mag : Number → M) (factor : Prefix → M) :
    ∃ tokens l statements t defs ρ, lex siLines = some tokens ∧ Separated (WrittenEntry true) ';' l tokens ∧ Collects l statements ∧
      readTemplates (E := Ratio) mag statements = some t ∧ t.WellFormed ∧ t.Balanced ρ ∧
      unitSystem (E := Ratio) mag factor tokens = .done (defs, []) ∧ ∀ U ∈ defs.units, ∀ k, U.dims.expo k = ρ U.name k := by
  obtain ⟨tokens, statements, defs, h1, h2, h3, -⟩ := C36_rational (M := M) mag factor
  have hden : ∀ x ∈ statements.exponents, 0 < x.denom.getD 1 := by
    have h := siDenominators_ok
    unfold siDenominators at h
    rw [h1] at h
    simp only [h2, List.all_eq_true, decide_eq_true_eq] at h
    exact h
  obtain ⟨l, i1, i2⟩ := (C42_iff _ tokens statements).1 h2
  unfold unitSystem at h3
  rw [h2] at h3
  simp only at h3
  split at h3
  · simp at h3
  · rename_i t ht
    split at h3
    · simp at h3
    · rename_i r hr
      injection h3 with h3
      subst h3
      have hc := readTemplates_canonical ht hden
      obtain ⟨ρ, hb, -, hU, -⟩ := C80_solution factor t defs hr hc
      refine ⟨tokens, l, statements, t, defs, ρ, h1, i1, i2, ht, (C80_accepted_iff factor t defs [] hr hc).1 rfl, hb, ?_, hU⟩
      unfold unitSystem
      rw [h2]
      simp only [ht, hr]

end Diman
