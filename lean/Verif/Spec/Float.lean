import Verif.Model.Float
/-!
# Specification vocabulary for floating point (C03, C22, C44)
-/
namespace Diman

/-- The rational a finite float denotes; `none` for NaN and infinities. -/
def Fmt.val (f : Fmt) : Fl → Option ℚ
  | .nan => none
  | .num s n => if f.infBits ≤ n then none else some (if s then -f.mag n else f.mag n)

/-- A value of the format (bit patterns beyond infinity do not exist). -/
def Fmt.Valid (f : Fmt) : Fl → Prop
  | .nan => True
  | .num _ n => n ≤ f.infBits

/-- Doubles a `Magnitude` stores without loss: zeros, infinities, and everything from `2^-971` up. -/
def Storable : Fl → Prop
  | .nan => False
  | .num _ n => n ≤ f64Fmt.infBits ∧ (n = 0 ∨ pow2 (-971) ≤ f64Fmt.mag n)

end Diman
