/-!
# Checked machine integers

`i64` values are `Int`s; an operation whose exact result does not fit, or which divides by zero, is `none`
(panic in dev builds, compile error in const evaluation). For release builds, which wrap, see `Model/Release`.
-/
namespace Diman

/-- `i64::MIN` -/
def i64Min : Int := -9223372036854775808
/-- `i64::MAX` -/
def i64Max : Int := 9223372036854775807

/-- The range check every arithmetic `i64` operation performs. -/
def i64 (x : Int) : Option Int := if i64Min ≤ x ∧ x ≤ i64Max then some x else none

/-- `x` is an `i64` value. -/
def IsI64 (x : Int) : Prop := i64Min ≤ x ∧ x ≤ i64Max

instance (x : Int) : Decidable (IsI64 x) := by unfold IsI64; infer_instance

/-- Rust `a / b` on `i64`: truncating; panics on `b = 0` and on `i64::MIN / -1`. -/
def i64Div (a b : Int) : Option Int := if b = 0 then none else i64 (a.tdiv b)

/-- Rust `a % b` on `i64`: truncating; panics on `b = 0` and on `i64::MIN % -1`. -/
def i64Rem (a b : Int) : Option Int :=
  if b = 0 then none else if a = i64Min ∧ b = -1 then none else some (a.tmod b)

end Diman
