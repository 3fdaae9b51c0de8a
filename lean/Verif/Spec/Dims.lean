import Verif.Model.Dims
import Verif.Spec.Ratio
/-!
# Specification vocabulary for dimensions (C06, C07, C14, C17, C18, ...)
A dimension is, mathematically, a function from base dimensions to rational exponents.
-/
namespace Diman

/-- How exponents denote rationals. `Good` exponents denote something; `Canon` exponents are in normal form, so that equality of
exponents is equality of the rationals. Both exponent types of the code satisfy this (instances in `Proofs/Exponent.lean`). -/
class LawfulExponent (E : Type) [Exponent E] where
  val : E → ℚ
  Good : E → Prop
  Canon : E → Prop
  canon_good : ∀ {a : E}, Canon a → Good a
  canon_ext : ∀ {a b : E}, Canon a → Canon b → val a = val b → a = b
  one_canon : Canon (Exponent.one : E)
  zero_canon : Canon (Exponent.zero : E)
  one_val : val (Exponent.one : E) = 1
  zero_val : val (Exponent.zero : E) = 0
  ofInt_canon : ∀ i : Int, Canon (Exponent.ofInt i : E)
  ofInt_val : ∀ i : Int, val (Exponent.ofInt i : E) = i
  add_good : ∀ {a b c : E}, Good a → Good b → Exponent.add a b = some c → Good c ∧ val c = val a + val b
  mul_good : ∀ {a b c : E}, Good a → Good b → Exponent.mul a b = some c → Good c ∧ val c = val a * val b
  neg_good : ∀ {a c : E}, Good a → Exponent.neg a = some c → Good c ∧ val c = -val a
  add_canon : ∀ {a b c : E}, Canon a → Canon b → Exponent.add a b = some c → Canon c
  mul_canon : ∀ {a b c : E}, Canon a → Canon b → Exponent.mul a b = some c → Canon c
  neg_canon : ∀ {a c : E}, Canon a → Exponent.neg a = some c → Canon c

section
variable {E : Type} [Exponent E] [LawfulExponent E]
open LawfulExponent

/-- The exponent of base dimension `k` in `d`; a base dimension that is not mentioned has exponent zero. -/
def Dims.expo (d : Dims E) (k : Str) : ℚ :=
  match d.get k with
  | some v => val v
  | none => 0

/-- A well-formed dimension map: no key twice (a `HashMap`), every exponent denotes a rational. -/
def Dims.WF (d : Dims E) : Prop := (d.map Prod.fst).Nodup ∧ ∀ kv ∈ d, Good kv.2

/-- All exponents are in normal form. -/
def Dims.Canonical (d : Dims E) : Prop := ∀ kv ∈ d, Canon kv.2

mutual
/-- The exponent of base dimension `k` in an expression: add over products, subtract over quotients, multiply under powers.
`ρ` gives the exponents of the leaves. -/
def Expr.specExpo {T : Type} (ρ : T → Str → ℚ) (k : Str) : Expr T E → ℚ
  | .value f => f.specExpo ρ k
  | .binary l .mul r => l.specExpo ρ k + r.specExpo ρ k
  | .binary l .div r => l.specExpo ρ k - r.specExpo ρ k
/-- The same for a factor. -/
def Factor.specExpo {T : Type} (ρ : T → Str → ℚ) (k : Str) : Factor T E → ℚ
  | .value v => ρ v k
  | .power v e => ρ v k * val e
  | .paren e => e.specExpo ρ k
end

mutual
/-- Every literal exponent in the expression satisfies `P`. -/
def Expr.AllExp {T : Type} (P : E → Prop) : Expr T E → Prop
  | .value f => f.AllExp P
  | .binary l _ r => l.AllExp P ∧ r.AllExp P
/-- The same for a factor. -/
def Factor.AllExp {T : Type} (P : E → Prop) : Factor T E → Prop
  | .value _ => True
  | .power _ e => P e
  | .paren e => e.AllExp P
end

end
end Diman
