import Verif.Proofs.Shape
import Verif.Examples.Sample
/-!
# C45: what is reported and all dimensions do not depend on the numeric factors
-/
set_option linter.unusedSectionVars false
namespace Diman
variable {E M M' : Type} [Exponent E] [MagOps E M] [MagOps E M']

/-- **C45.** Take two unit systems that differ only in their numeric literals (even in how numbers are represented and computed with).
The macro panics on both or on neither, it reports exactly the same errors, and the generated definitions are the same except for the
conversion factors. -/
theorem C45_numbers_do_not_matter (factor : Prefix → M) (factor' : Prefix → M') (t : UnresolvedTemplates E M)
    (t' : UnresolvedTemplates E M') (same : t.shape = t'.shape) :
    match runUnitSystem factor t, runUnitSystem factor' t' with
    | some (defs, errors), some (defs', errors') => errors = errors' ∧ defs.shape = defs'.shape
    | none, none => True
    | _, _ => False := by
  have h := runUnitSystem_shape factor t
  have h' := runUnitSystem_shape factor' t'
  rw [same, h'] at h
  cases h1 : runUnitSystem factor t with
  | none =>
    rw [h1] at h
    cases h2 : runUnitSystem factor' t' with
    | none => trivial
    | some p => rw [h2] at h; simp at h
  | some p =>
    rw [h1] at h
    cases h2 : runUnitSystem factor' t' with
    | none => rw [h2] at h; simp at h
    | some q =>
      rw [h2] at h
      simp only [Option.map_some, Option.some.injEq, Prod.mk.injEq] at h
      exact ⟨h.2.symm, h.1.symm⟩

/-- **C45, from the source tokens.** Reading the literals as floating-point numbers (`mag`) or as anything else (`mag'`) makes no
difference to syntax errors, panics, reported errors and dimensions. In particular, rounding of literals and factors never does. -/
theorem C45_from_tokens [ReadExponent E] (mag : Number → M) (mag' : Number → M') (factor : Prefix → M) (factor' : Prefix → M')
    (ts : List Tok) :
    match unitSystem (E := E) mag factor ts, unitSystem (E := E) mag' factor' ts with
    | .done (defs, errors), .done (defs', errors') => errors = errors' ∧ defs.shape = defs'.shape
    | .syntaxError, .syntaxError => True
    | .panic, .panic => True
    | _, _ => False := by
  unfold unitSystem
  cases parseSystem (ReadExponent.rational E) ts with
  | none => trivial
  | some t =>
    have h := readTemplates_shape (E := E) mag t
    have h' := readTemplates_shape (E := E) mag' t
    rw [h'] at h
    simp only
    cases h1 : readTemplates (E := E) mag t with
    | none =>
      rw [h1] at h
      cases h2 : readTemplates (E := E) mag' t with
      | none => trivial
      | some p => rw [h2] at h; simp at h
    | some p =>
      rw [h1] at h
      cases h2 : readTemplates (E := E) mag' t with
      | none => rw [h2] at h; simp at h
      | some q =>
        rw [h2] at h
        simp only [Option.map_some, Option.some.injEq] at h
        have := C45_numbers_do_not_matter factor factor' p q h.symm
        revert this
        cases h3 : runUnitSystem factor p with
        | none =>
          cases h4 : runUnitSystem factor' q with
          | none => simp [h3, h4]
          | some b => simp
        | some a =>
          cases h4 : runUnitSystem factor' q with
          | none => simp
          | some b => simp only [h3, h4]; exact id

end Diman

namespace Diman.Sample
attribute [local instance] exactMag
/-- The hypotheses are met by the sample system (accepted, with literals) and the same system with every literal set to zero. -/
def zeroed : UnresolvedTemplates Int ℚ :=
  { sample with
    units := sample.units.map fun u => { u with definition := match u.definition with
      | .base b => .base b
      | .expression e => .expression (e.map (Atom.mapConcrete fun _ => 0)) }
    constants := sample.constants.map fun c => { c with rhs := c.rhs.map (Atom.mapConcrete fun _ => 0) } }

example : zeroed.shape = sample.shape ∧ (∃ defs, runUnitSystem exactFactor zeroed = some (defs, [])) := by
  have h : zeroed.shape = sample.shape := rfl
  refine ⟨h, ?_⟩
  have := C45_numbers_do_not_matter exactFactor exactFactor zeroed sample h
  obtain ⟨defs, hd⟩ : ∃ defs, runUnitSystem exactFactor sample = some (defs, []) := ⟨_, sample_accepted.choose_spec⟩
  rw [hd] at this
  revert this
  cases h1 : runUnitSystem exactFactor zeroed with
  | none => simp
  | some p => obtain ⟨d, e⟩ := p; rintro ⟨he, _⟩; subst he; exact ⟨_, rfl⟩
end Diman.Sample
