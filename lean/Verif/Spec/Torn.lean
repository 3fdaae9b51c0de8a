import Verif.Spec.Versions
/-!
# Texts cut short (C76, C77)
-/
namespace Diman
open LawfulExponent
variable {E M : Type} [Exponent E] [LawfulExponent E] [MagOps E M]

/-- No unit symbol turns into a misleading one when it is cut short. If the symbol of `V` is what is left of the symbol of `U` (a unit that can be printed: its
conversion factor is one), then `V` has another dimension; and if `U` is the unit of the base dimension `b`, then `V` does not contain `b` at all. -/
def TearSafe (defs : Defs E M) : Prop :=
  ∀ U ∈ defs.units, ∀ V ∈ defs.units, MagOps.isOne E U.mag = true → ∀ su sv, U.symbol = some su → V.symbol = some sv → sv ≠ [] → sv <+: su → sv ≠ su →
    (∃ k ∈ defs.baseDimensions, V.dims.expo k ≠ U.dims.expo k) ∧
    ∀ b ∈ defs.baseDimensions, (∀ k ∈ defs.baseDimensions, U.dims.expo k = if k = b then 1 else 0) → V.dims.expo b = 0
end Diman
