import Verif.Spec.Text
/-!
# Versions of a unit system (C59)
How the types and units of two versions of a unit system correspond.
-/
namespace Diman
open LawfulExponent

section
variable {E M : Type} [Exponent E] [LawfulExponent E]

/-- The exponent of the base dimension called `k` in a dimension of a system with base dimensions `bd` (in this order): zero if there is no
such base dimension. -/
def exponentAt (bd : List Str) (d : DimVal E) (k : Str) : ℚ := (((bd.zip d).find? fun p => decide (p.1 = k)).map fun p => val p.2).getD 0

/-- Two dimensions of two systems are the same: every base dimension has the same exponent in both. A system may have more base dimensions
than the other, and may declare them in another order. -/
def SameDimension (bd : List Str) (d : DimVal E) (bd' : List Str) (d' : DimVal E) : Prop := ∀ k, exponentAt bd d k = exponentAt bd' d' k

/-- Every unit of the first system that has a symbol is also in the second, under the same symbol, with the same exponents and the same
conversion factor. (Its name may be another.) -/
def KeepsSymbols (defs defs' : Defs E M) : Prop :=
  ∀ U ∈ defs.units, ∀ s, U.symbol = some s → ∃ U' ∈ defs'.units, U'.symbol = some s ∧ U'.dims = U.dims ∧ U'.mag = U.mag

end
end Diman
