import Verif.Proofs.Dims
/-!
# C06 An expression's dimension is the algebra of its parts' exponents
-/
namespace Diman
open LawfulExponent

/-- For every expression, every assignment of dimensions to its leaves, and every base dimension `k`: the computed exponent of
`k` is the sum / difference / multiple prescribed by the expression (`specExpo`). Holds for integer and rational exponents;
exponent literals must denote rationals (non-zero denominators) and leaf dimensions must be maps (no key twice). -/
theorem C06_dimension_algebra {E M : Type} [Exponent E] [LawfulExponent E] [MagOps E M]
    (e : Expr (DM E M) E) (r : DM E M)
    (leaves : ∀ d ∈ e.vals, d.dims.WF) (exps : e.AllExp Good) (h : e.eval = some r) :
    ∀ k, r.dims.expo k = e.specExpo (fun d => d.dims.expo) k :=
  (e.eval_expo leaves exps h).2

/-- The result is again a map in which every exponent denotes a rational, and normal forms are preserved, so the previous
theorem applies to every expression built from results of expressions. -/
theorem C06_wellformed {E M : Type} [Exponent E] [LawfulExponent E] [MagOps E M]
    (e : Expr (DM E M) E) (r : DM E M)
    (leaves : ∀ d ∈ e.vals, d.dims.WF) (exps : e.AllExp Good) (h : e.eval = some r) :
    r.dims.WF ∧ ((∀ d ∈ e.vals, d.dims.Canonical) → e.AllExp Canon → r.dims.Canonical) :=
  ⟨(e.eval_expo leaves exps h).1, fun hl he => e.eval_canonical hl he h⟩

/-- Integer exponents: no hypothesis on literals is needed. -/
theorem C06_dimension_algebra_int {M : Type} [MagOps Int M] (e : Expr (DM Int M) Int) (r : DM Int M)
    (leaves : ∀ d ∈ e.vals, (d.dims.map Prod.fst).Nodup) (h : e.eval = some r) :
    ∀ k, r.dims.expo k = e.specExpo (fun d => d.dims.expo) k := by
  have triv : ∀ e : Expr (DM Int M) Int, e.AllExp (Good : Int → Prop) := by
    intro e
    exact Expr.rec (motive_1 := fun e => e.AllExp (Good : Int → Prop)) (motive_2 := fun f => f.AllExp (Good : Int → Prop))
      (fun f hf => hf) (fun l o r hl hr => ⟨hl, hr⟩) (fun v => trivial) (fun v e => trivial) (fun e he => he) e
  exact C06_dimension_algebra e r (fun d hd => ⟨leaves d hd, fun _ _ => trivial⟩) (triv e) h

/-- Exact magnitudes, to run the examples. -/
@[reducible] def unitMag (E : Type) : MagOps E Unit := ⟨(), fun _ _ => (), fun _ _ => (), fun _ _ => (), fun _ => true⟩

-- non-vacuity: (length / time)^... : `length * mass^2 / (time * length)` has exponents length 0, mass 2, time -1
section
local instance : MagOps Int Unit := unitMag Int
local instance : MagOps Ratio Unit := unitMag Ratio
example :
    (Expr.binary (.binary (.value (.value (⟨[(str!"length", 1)], ()⟩ : DM Int Unit))) .mul (.power ⟨[(str!"mass", 1)], ()⟩ (2 : Int))) .div
      (.paren (.binary (.value (.value ⟨[(str!"time", 1)], ()⟩)) .mul (.value ⟨[(str!"length", 1)], ()⟩)))).eval.map DM.dims
    = some [(str!"length", 0), (str!"mass", 2), (str!"time", -1)] := by decide +kernel
example :
    (Expr.value (.power (⟨[(str!"length", ⟨2, 1⟩)], ()⟩ : DM Ratio Unit) (⟨3, 4⟩ : Ratio))).eval.map DM.dims
    = some [(str!"length", (⟨3, 2⟩ : Ratio))] := by decide +kernel
end

end Diman
