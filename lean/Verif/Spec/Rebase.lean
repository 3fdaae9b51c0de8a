import Verif.Spec.Resolve
import Mathlib.Analysis.SpecialFunctions.Pow.Real
/-!
# Changing the base units of a unit system (C60)
Two unit systems with exact conversion factors. The second has other base units: the base unit of the base dimension `k` of the second
system is a unit of the first, of size `c k`. The statements of the second system are read as claims about the first (`TrueIn`).
-/
namespace Diman
open LawfulExponent

section
variable {E : Type} [Exponent E] [LawfulExponent E]

/-- Exact real conversion factors: powers are real powers. -/
@[reducible] noncomputable def exactReal : MagOps E ℝ where
  one := 1
  mul := (· * ·)
  div := (· / ·)
  pow x e := x ^ ((val e : ℚ) : ℝ)
  isOne x := by classical exact decide (x = 1)

attribute [local instance] exactReal

/-- The system generates a unit or constant called `x`. -/
def Defs.Has {M : Type} (D : Defs E M) (x : Str) : Prop := (∃ U ∈ D.units, U.name = x) ∨ ∃ C ∈ D.constants, C.name = x

/-- The equation `x = e` holds in the system `D`: `x` has the exponents and the conversion factor of the expression. -/
def Defs.Holds (D : Defs E ℝ) (x : Str) (e : Expr (Atom ℝ) E) : Prop :=
  D.Has x ∧ (∀ k, D.unitExpo x k = e.specExpo (Atom.expo D.unitExpo) k) ∧ D.magOf x = e.specMag (Atom.mag D.magOf)

/-- The unit statements of `u` are true in the system `D`; a base unit of base dimension `k` has size `c k` there. -/
def UnitEntry.TrueIn (D : Defs E ℝ) (c : Str → ℝ) (x : UnitEntry E ℝ) : Prop :=
  match x.definition with
  | .base d => D.Has x.name ∧ (∀ k, D.unitExpo x.name k = if k = toSnakecase d then 1 else 0) ∧ D.magOf x.name = c (toSnakecase d)
  | .expression e => D.Holds x.name e

/-- `∏ k, c k ^ (exponent of k in x)`: the size, in the first system, of what measures one in the second. -/
noncomputable def Defs.size (D : Defs E ℝ) (c : Str → ℝ) (bd : List Str) (x : Str) : ℝ :=
  (bd.map fun k => c k ^ ((D.unitExpo x k : ℚ) : ℝ)).prod
end
end Diman
