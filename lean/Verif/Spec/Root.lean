import Verif.Spec.ErrorBook
/-!
# Correctly rounded square roots (C58)
-/
namespace Diman

/-- The least normal number of a float type: results below it lose precision. -/
noncomputable def FloatTy.normal : FloatTy → ℝ
  | .f32 => 2 ^ (-126 : ℤ)
  | .f64 => 2 ^ (-1022 : ℤ)

/-- `sqrt` as IEEE 754 and the documentation of `f64::sqrt` have it: of a finite number that is not negative, a finite float to which no
finite float is nearer to the real square root; of infinity, infinity. -/
structure PlatformFns.NearestSqrt (P : PlatformFns) : Prop where
  finite : ∀ (t : FloatTy) (n : Nat), n < t.fmt.infBits → ∃ m < t.fmt.infBits, P.sqrt t (.num false n) = .num false m ∧
    ∀ k < t.fmt.infBits, |((t.fmt.mag m : ℚ) : ℝ) - Real.sqrt (t.fmt.mag n : ℚ)| ≤ |((t.fmt.mag k : ℚ) : ℝ) - Real.sqrt (t.fmt.mag n : ℚ)|
  infinite : ∀ t : FloatTy, P.sqrt t (.num false t.fmt.infBits) = .num false t.fmt.infBits

/-- `powi` of the build: compiler-rt's with `std`, num-traits' without. -/
def PlatformFns.BuildPowi (P : PlatformFns) (std : Bool) : Prop :=
  ∀ (t : FloatTy) x e, P.powi t x e = if std then powiCompilerRt t.fmt x e else powiNumTraits t.fmt x e

end Diman
