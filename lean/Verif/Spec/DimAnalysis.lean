import Verif.Spec.Generic
/-!
# Dimensional analysis (C71)
Products of powers of quantities, their dimensions, and factors that agree with dimensions.
-/
namespace Diman
section
variable {E : Type} [Exponent E] [LawfulExponent E]

/-- The exponent of base dimension `k` in the dimension of `∏ x_i ^ p_i`, where `x_i` has dimension `d_i`: `l` is the list of the `(d_i, p_i)`. -/
def powersDim (l : List (DimVal E × ℚ)) (k : Nat) : ℚ := (l.map fun p => p.2 * p.1.vec.getD k 0).sum

/-- `∏ x_i ^ p_i`, for real exponents. -/
noncomputable def powers (xs : List ℝ) (ps : List ℚ) : ℝ := (List.zipWith (fun (x : ℝ) (p : ℚ) => x ^ (p : ℝ)) xs ps).prod

/-- Factors for numbers of given dimensions agree with each other: whenever a product of integral powers of such numbers is dimensionless, the
product of the powers of their factors is one. (`S` has the dimensions, each with its factor.) -/
def Agree (S : Set (DimVal E × ℝ)) : Prop :=
  ∀ l : List ((DimVal E × ℝ) × ℤ), (∀ p ∈ l, p.1 ∈ S) → (∀ k, powersDim (l.map fun p => (p.1.1, (p.2 : ℚ))) k = 0) → (l.map fun p => p.1.2 ^ p.2).prod = 1

/-- `c` is a factor for values of type `t`: one of those for its dimension. Plain values are not changed. -/
def Ty.HasFactor (S : Set (DimVal E × ℝ)) : Ty E → ℝ → Prop
  | .quantity _ d, c | .unit d, c | .runtimeUnit d, c => (d, c) ∈ S
  | .bare _, c | .bool, c | .ordering, c => c = 1

/-- The dimension `d` can be made from the dimensions `ds`: it is that of a product of rational powers. -/
def DimVal.MadeFrom (d : DimVal E) (ds : Set (DimVal E)) : Prop :=
  ∃ l : List (DimVal E × ℚ), (∀ p ∈ l, p.1 ∈ ds) ∧ ∀ k, powersDim l k = d.vec.getD k 0

/-- The dimensions `ds` are independent: no product of integral powers of quantities of these dimensions is dimensionless, except with all powers zero. -/
def Independent (ds : List (DimVal E)) : Prop :=
  ∀ ps : List ℤ, ps.length = ds.length → (∀ k, powersDim (ds.zip (ps.map Int.cast)) k = 0) → ∀ p ∈ ps, p = 0
end
end Diman
