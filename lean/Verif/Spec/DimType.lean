import Verif.Model.DimType
import Verif.Spec.Dims
/-!
# Specification vocabulary for the generated dimension type (C17, C18, C25)
-/
namespace Diman
open LawfulExponent
variable {E : Type} [Exponent E] [LawfulExponent E]

/-- The exponents a dimension value denotes, base dimension by base dimension. -/
def DimVal.vec (d : DimVal E) : List ℚ := d.map val

/-- All exponents in normal form (always true of integer exponents; for rational ones: positive denominator, lowest terms). -/
def DimVal.Canonical (d : DimVal E) : Prop := ∀ e ∈ d, Canon e

end Diman
