import Verif.Model.Ratio
import Mathlib.Data.Rat.Defs
import Mathlib.Algebra.Field.Rat
/-!
# Specification vocabulary for rational exponents (C01, C02)
-/
namespace Diman

/-- The rational number an exponent denotes. -/
def Ratio.val (r : Ratio) : ℚ := (r.num : ℚ) / (r.denom : ℚ)

/-- The exponent denotes a rational number at all. -/
def Ratio.Defined (r : Ratio) : Prop := r.denom ≠ 0

/-- Both components are `i64` values. -/
def Ratio.InRange (r : Ratio) : Prop := IsI64 r.num ∧ IsI64 r.denom

/-- Lowest terms with a positive denominator: the unique canonical representative of a rational. -/
def Ratio.Canonical (r : Ratio) : Prop := 0 < r.denom ∧ Int.gcd r.num r.denom = 1

/-- `|x|` fits in an `i64` (so also `-x` does). -/
def FitsAbs (x : Int) : Prop := -i64Max ≤ x ∧ x ≤ i64Max

instance (r : Ratio) : Decidable r.Defined := by unfold Ratio.Defined; infer_instance
instance (r : Ratio) : Decidable r.InRange := by unfold Ratio.InRange; infer_instance
instance (r : Ratio) : Decidable r.Canonical := by unfold Ratio.Canonical; infer_instance
instance (x : Int) : Decidable (FitsAbs x) := by unfold FitsAbs; infer_instance

end Diman
