import Verif.Model.Float
/-!
# `powi` with and without the standard library
Without feature `std` the crate is `no_std` (crates/diman_lib/src/lib.rs:1), where `f64` has no inherent `powi`: the calls in
magnitude.rs:47 and dimension_exponent.rs:29 go to `num_traits::float::FloatCore::powi` (or `Float::powi` with feature `num-traits-libm`,
magnitude.rs:6-10). Both are modelled after num-traits 0.2.17: the reciprocal is taken first, then `num_traits::pow`.
-/
namespace Diman

/-- num-traits src/pow.rs `pow`, first loop: `while exp & 1 == 0 { base = base * base; exp >>= 1; }` (`exp` is positive) -/
def powSkip (f : Fmt) (base : Fl) (exp : Nat) : Fl × Nat :=
  if _h : exp = 0 ∨ exp % 2 = 1 then (base, exp) else powSkip f (f.mul base base) (exp / 2)
termination_by exp
decreasing_by omega

/-- Second loop: `while exp > 1 { exp >>= 1; base = base * base; if exp & 1 == 1 { acc = acc * base; } }` -/
def powAcc (f : Fmt) (acc base : Fl) (exp : Nat) : Fl :=
  if _h : exp ≤ 1 then acc
  else powAcc f (if exp / 2 % 2 = 1 then f.mul acc (f.mul base base) else acc) (f.mul base base) (exp / 2)
termination_by exp
decreasing_by omega

/-- num-traits src/pow.rs `pow` -/
def powNumTraits (f : Fmt) (base : Fl) (exp : Nat) : Fl :=
  if exp = 0 then f.ofInt 1
  else if (powSkip f base exp).2 = 1 then (powSkip f base exp).1
  else powAcc f (powSkip f base exp).1 (powSkip f base exp).1 (powSkip f base exp).2

/-- num-traits src/float.rs `FloatCore::powi` and, for `libm`, `Float::powi`: a negative exponent is made positive (`i32::MIN` becomes
`2^31` as `u32`) and the base inverted. -/
def powiNumTraits (f : Fmt) (a : Fl) (b : Int) : Fl :=
  if b < 0 then powNumTraits f (f.div (f.ofInt 1) a) b.natAbs else powNumTraits f a b.natAbs

/-- The platform with feature `std`: `f64::powi` is compiler-rt's `__powidf2`. `powf` stays a parameter. -/
def rtLib (powf : Fl → Fl → Fl) : FloatLib := ⟨powiCompilerRt f64Fmt, powf⟩

/-- The platform without feature `std`: `powi` is num-traits'. -/
def ntLib (powf : Fl → Fl → Fl) : FloatLib := ⟨powiNumTraits f64Fmt, powf⟩

/-- The platform of a build with or without feature `std` (Cargo.toml `std = ["diman_unit_system/std", "diman_lib/std"]`: the macro and the
generated code use the same one). -/
def buildLib (std : Bool) (powf : Fl → Fl → Fl) : FloatLib := if std then rtLib powf else ntLib powf

end Diman
