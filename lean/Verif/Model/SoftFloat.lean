import Verif.Model.Magnitude
import Verif.Model.Api
/-!
# The generated code on IEEE-754 floats
The primitive operations `Prims` of core's `f32` and `f64`, and of `Magnitude` (crates/diman_lib/src/magnitude.rs). Functions that are
not correctly rounded or depend on the platform (`powi`, `powf`, `sqrt`, `cbrt`, the transcendental functions) are parameters.
-/
namespace Diman

/-- The format of a float type. -/
def FloatTy.fmt : FloatTy → Fmt
  | .f32 => f32Fmt
  | .f64 => f64Fmt

/-- The signed rational of a finite float (0 for the others, not used there). -/
def Fmt.toRat (f : Fmt) : Fl → ℚ
  | .nan => 0
  | .num s n => if s then -f.mag n else f.mag n

/-- Primitive addition: the exact sum, correctly rounded; an exact zero is negative only if both operands are. -/
def Fmt.add (f : Fmt) : Fl → Fl → Fl
  | .num s a, .num t b =>
    if f.isInf a then (if f.isInf b ∧ s ≠ t then .nan else .num s f.infBits)
    else if f.isInf b then .num t f.infBits
    else
      let q := f.toRat (.num s a) + f.toRat (.num t b)
      if q = 0 then .num (s && t) 0 else .num (decide (q < 0)) (f.round |q|)
  | _, _ => .nan

/-- Negation flips the sign. -/
def Fl.neg : Fl → Fl
  | .nan => .nan
  | .num s n => .num (!s) n

/-- `x.abs()` -/
def Fl.abs : Fl → Fl
  | .nan => .nan
  | .num _ n => .num false n

/-- `x < y`: false if one is NaN; the zeros are equal. -/
def Fl.lt : Fl → Fl → Bool
  | .num s a, .num t b =>
    match s, t with
    | false, false => decide (a < b)
    | true, true => decide (b < a)
    | true, false => decide (0 < a) || decide (0 < b)
    | false, true => false
  | _, _ => false

/-- `x.is_nan()` -/
def Fl.isNan : Fl → Bool
  | .nan => true
  | _ => false

/-- `x.min(y)`: the other operand if one is NaN. -/
def Fl.min (x y : Fl) : Fl := if x.isNan then y else if y.isNan then x else if y.lt x then y else x
/-- `x.max(y)` -/
def Fl.max (x y : Fl) : Fl := if x.isNan then y else if y.isNan then x else if x.lt y then y else x

/-- `x.clamp(min, max)`: asserts `min <= max`. -/
def Fl.clamp (x a b : Fl) : Option Fl :=
  if a.lt b || a.feq b then some (if x.lt a then a else if b.lt x then b else x) else none

/-- The functions the code takes from the platform, per float type. -/
structure PlatformFns where
  lib : FloatLib
  powi : FloatTy → Fl → Int → Fl
  sqrt : FloatTy → Fl → Fl
  cbrt : FloatTy → Fl → Fl
  fn : FloatFn → FloatTy → Fl → Fl

/-- Core's `f32` and `f64` and diman's `Magnitude`. magnitude.rs:46-52 (`into`), 64-78 (`magMul`, `magDiv`); the multiplication and
division of a float by a `Magnitude` (magnitude.rs:96-110, 128-142) is `into` followed by the float operation. -/
@[reducible] def softPrims (P : PlatformFns) : Prims Fl Magnitude where
  zero t := t.fmt.ofInt 0
  one t := t.fmt.ofInt 1
  add t := t.fmt.add
  sub t x y := t.fmt.add x y.neg
  mul t := t.fmt.mul
  div t := t.fmt.div
  neg _ := Fl.neg
  abs _ := Fl.abs
  min _ := Fl.min
  max _ := Fl.max
  clamp _ := Fl.clamp
  powi := P.powi
  sqrt := P.sqrt
  cbrt := P.cbrt
  fn := P.fn
  eq _ := Fl.feq
  lt _ := Fl.lt
  isNan _ := Fl.isNan
  into t m := match t with
    | .f32 => m.intoF32 P.lib
    | .f64 => m.intoF64 P.lib
  magMul a b := a.mul P.lib b
  magDiv a b := a.div P.lib b

end Diman
