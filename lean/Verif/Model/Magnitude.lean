import Verif.Model.Float
import Verif.Model.Ratio
/-!
# `diman_lib::magnitude` — conversion factors stored as decoded doubles
Models crates/diman_lib/src/magnitude.rs and crates/diman_lib/src/dimension_exponent.rs.
-/
namespace Diman

/-- magnitude.rs:14-19 `struct Magnitude { mantissa: u64, exponent: i16, sign: i8 }` -/
structure Magnitude where
  mantissa : Nat
  exponent : Int
  sign : Int
deriving DecidableEq, Repr

/-- magnitude.rs:22-34 `integer_decode_f64`, on the bit pattern. -/
def integerDecode (bits : BitVec 64) : Magnitude :=
  let sign : Int := if bits >>> 63 = 0#64 then 1 else -1
  let exponent : BitVec 64 := (bits >>> 52) &&& 0x7ff#64
  let mantissa : BitVec 64 :=
    if exponent = 0#64 then (bits &&& 0xfffffffffffff#64) <<< 1
    else (bits &&& 0xfffffffffffff#64) ||| 0x10000000000000#64
  { mantissa := mantissa.toNat, exponent := (exponent.toNat : Int) - (1023 + 52), sign := sign }

namespace Magnitude

/-- magnitude.rs:37-44 `Magnitude::from_f64` -/
def fromF64 (x : Fl) : Magnitude := integerDecode (f64Bits x)

/-- magnitude.rs:46-48 `Magnitude::into_f64`: `sign as f64 * mantissa as f64 * 2.0f64.powi(exponent)`. -/
def intoF64 (lib : FloatLib) (m : Magnitude) : Fl :=
  f64Fmt.mul (f64Fmt.mul (f64Fmt.ofInt m.sign) (f64Fmt.ofInt m.mantissa))
    (lib.powi (f64Fmt.ofInt 2) m.exponent)

/-- magnitude.rs:50-52 `Magnitude::into_f32` -/
def intoF32 (lib : FloatLib) (m : Magnitude) : Fl := Fmt.convert f64Fmt f32Fmt (m.intoF64 lib)

/-- magnitude.rs:54-57 `Magnitude::pow_rational` -/
def powRational (lib : FloatLib) (m : Magnitude) (num denom : Int) : Magnitude :=
  fromF64 (lib.powf (m.intoF64 lib) (f64Fmt.div (f64Fmt.ofInt num) (f64Fmt.ofInt denom)))

/-- magnitude.rs:59-61 `Magnitude::is_one` -/
def isOne (lib : FloatLib) (m : Magnitude) : Bool := (m.intoF64 lib).feq (f64Fmt.ofInt 1)

/-- magnitude.rs:64-70 `Magnitude * Magnitude` -/
def mul (lib : FloatLib) (a b : Magnitude) : Magnitude := fromF64 (f64Fmt.mul (a.intoF64 lib) (b.intoF64 lib))

/-- magnitude.rs:72-78 `Magnitude / Magnitude` -/
def div (lib : FloatLib) (a b : Magnitude) : Magnitude := fromF64 (f64Fmt.div (a.intoF64 lib) (b.intoF64 lib))

/-- magnitude.rs:80-86 `Magnitude * f64` -/
def mulF64 (lib : FloatLib) (a : Magnitude) (x : Fl) : Magnitude := fromF64 (f64Fmt.mul (a.intoF64 lib) x)

/-- magnitude.rs:88-94 `Magnitude / f64` -/
def divF64 (lib : FloatLib) (a : Magnitude) (x : Fl) : Magnitude := fromF64 (f64Fmt.div (a.intoF64 lib) x)

/-- magnitude.rs:96-102 `f64 * Magnitude` -/
def f64Mul (lib : FloatLib) (x : Fl) (a : Magnitude) : Fl := f64Fmt.mul x (a.intoF64 lib)

/-- magnitude.rs:104-110 `f64 / Magnitude` -/
def f64Div (lib : FloatLib) (x : Fl) (a : Magnitude) : Fl := f64Fmt.div x (a.intoF64 lib)

/-- magnitude.rs:112-118 `Magnitude * f32` -/
def mulF32 (lib : FloatLib) (a : Magnitude) (x : Fl) : Magnitude :=
  fromF64 (Fmt.convert f32Fmt f64Fmt (f32Fmt.mul (a.intoF32 lib) x))

/-- magnitude.rs:120-126 `Magnitude / f32` -/
def divF32 (lib : FloatLib) (a : Magnitude) (x : Fl) : Magnitude :=
  fromF64 (Fmt.convert f32Fmt f64Fmt (f32Fmt.div (a.intoF32 lib) x))

/-- magnitude.rs:128-134 `f32 * Magnitude` -/
def f32Mul (lib : FloatLib) (x : Fl) (a : Magnitude) : Fl := f32Fmt.mul x (a.intoF32 lib)

/-- magnitude.rs:136-142 `f32 / Magnitude` -/
def f32Div (lib : FloatLib) (x : Fl) (a : Magnitude) : Fl := f32Fmt.div x (a.intoF32 lib)

/-- Rust's `exponent as i32` for an `i64`: truncation to the low 32 bits, two's complement. -/
def asI32 (x : Int) : Int := Int.bmod x (2 ^ 32)

/-- dimension_exponent.rs:28-30 `<i64 as DimensionExponent>::float_pow` -/
def floatPowInt (lib : FloatLib) (m : Magnitude) (e : Int) : Magnitude :=
  fromF64 (lib.powi (m.intoF64 lib) (asI32 e))

/-- ratio.rs:96-98 `<Ratio as DimensionExponent>::float_pow` -/
def floatPowRatio (lib : FloatLib) (m : Magnitude) (e : Ratio) : Magnitude := m.powRational lib e.num e.denom

end Magnitude
end Diman
