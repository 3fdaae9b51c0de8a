import Mathlib.Data.Rat.Floor
/-!
# IEEE-754 binary floating point

Rust's `f64`/`f32` primitive arithmetic (`*`, `/`, `as`), which `crates/diman_lib/src/magnitude.rs` and all generated
code use. A value is a NaN (one NaN: payloads are not modelled) or a sign and a magnitude, the magnitude being the
unsigned bit pattern below the sign bit, so that the order of magnitudes is the order of naturals.
Every operation is the exact rational result rounded to nearest, ties to even.
-/
namespace Diman

/-- A binary interchange format: `p` bits of precision (including the hidden bit), least subnormal `2^emin`, and the
all-ones value `top` of the exponent field. -/
structure Fmt where
  p : Nat
  emin : Int
  top : Nat
deriving DecidableEq, Repr

/-- `f64` -/
def f64Fmt : Fmt := ⟨53, -1074, 2047⟩
/-- `f32` -/
def f32Fmt : Fmt := ⟨24, -149, 255⟩

/-- The magnitude bit pattern of infinity. -/
def Fmt.infBits (f : Fmt) : Nat := f.top * 2 ^ (f.p - 1)

/-- A floating-point value: NaN, or sign and magnitude bits (at most `infBits`). -/
inductive Fl where
  | nan
  | num (neg : Bool) (n : Nat)
deriving DecidableEq, Repr

/-- `2^e` as a rational (kernel-friendly). -/
def pow2 (e : Int) : ℚ := if 0 ≤ e then ((2 ^ e.toNat : Nat) : ℚ) else mkRat 1 (2 ^ (-e).toNat)

/-- The rational denoted by magnitude bits `n` (below `infBits`). -/
def Fmt.mag (f : Fmt) (n : Nat) : ℚ :=
  if n < 2 ^ (f.p - 1) then (n : ℚ) * pow2 f.emin
  else ((n % 2 ^ (f.p - 1) + 2 ^ (f.p - 1) : Nat) : ℚ) * pow2 (f.emin + ((n / 2 ^ (f.p - 1) : Nat) : Int) - 1)

/-- Round a non-negative rational to the nearest integer, ties to even. -/
def rne (s : ℚ) : Int :=
  let fl := s.floor
  let r := s - fl
  if r < 1/2 then fl else if 1/2 < r then fl + 1 else if fl % 2 = 0 then fl else fl + 1

/-- `⌊log₂ q⌋` for positive `q`. -/
def log2 (q : ℚ) : Int :=
  let k : Int := (Nat.log2 q.num.toNat : Int) - (Nat.log2 q.den : Int)
  if pow2 k ≤ q then k else k - 1

/-- Round a non-negative rational to magnitude bits of format `f` (to nearest, ties to even, overflow to infinity). -/
def Fmt.round (f : Fmt) (q : ℚ) : Nat :=
  if q ≤ 0 then 0
  else
    let e := max (log2 q - (f.p - 1)) f.emin
    let n := ((e - f.emin).toNat) * 2 ^ (f.p - 1) + (rne (q * pow2 (-e))).toNat
    min n f.infBits

/-- Is the value infinite? -/
def Fmt.isInf (f : Fmt) (n : Nat) : Bool := decide (f.infBits ≤ n)

/-- Primitive multiplication. -/
def Fmt.mul (f : Fmt) : Fl → Fl → Fl
  | .num s a, .num t b =>
    if f.isInf a then (if b = 0 then .nan else .num (s != t) f.infBits)
    else if f.isInf b then (if a = 0 then .nan else .num (s != t) f.infBits)
    else .num (s != t) (f.round (f.mag a * f.mag b))
  | _, _ => .nan

/-- Primitive division. -/
def Fmt.div (f : Fmt) : Fl → Fl → Fl
  | .num s a, .num t b =>
    if f.isInf a then (if f.isInf b then .nan else .num (s != t) f.infBits)
    else if f.isInf b then .num (s != t) 0
    else if b = 0 then (if a = 0 then .nan else .num (s != t) f.infBits)
    else .num (s != t) (f.round (f.mag a / f.mag b))
  | _, _ => .nan

/-- `x == y` on floats: NaN is unequal to everything, the two zeros are equal. -/
def Fl.feq : Fl → Fl → Bool
  | .num s a, .num t b => (a == b) && (s == t || a == 0)
  | _, _ => false

/-- Integer to float conversion (`as f64` / `as f32`): correctly rounded. -/
def Fmt.ofInt (f : Fmt) (z : Int) : Fl := .num (decide (z < 0)) (f.round (z.natAbs : ℚ))

/-- Conversion between formats (`f64 as f32`, `f32 as f64`): correctly rounded. -/
def Fmt.convert (src dst : Fmt) : Fl → Fl
  | .nan => .nan
  | .num s a => .num s (if src.isInf a then dst.infBits else dst.round (src.mag a))

/-- `f64::to_bits`. The NaN is the canonical quiet NaN. -/
def f64Bits : Fl → BitVec 64
  | .nan => 0x7ff8000000000000#64
  | .num s n => (if s then 0x8000000000000000#64 else 0#64) ||| BitVec.ofNat 64 n

/-- `f64::from_bits`: every bit pattern with all-ones exponent field and non-zero fraction is the NaN. -/
def f64OfBits (b : BitVec 64) : Fl :=
  let n := b.toNat % 2 ^ 63
  if f64Fmt.infBits < n then .nan else .num (decide (2 ^ 63 ≤ b.toNat)) n

/-- The float functions the code takes from the platform (`std`/`libm`): `powi` and `powf`. -/
structure FloatLib where
  powi : Fl → Int → Fl
  powf : Fl → Fl → Fl

/-- compiler-rt `__powidf2` main loop: `r` accumulates, `a` is squared, `b` is halved. -/
def powiLoop (f : Fmt) (r a : Fl) (b : Nat) : Fl :=
  if _h : b = 0 then r
  else
    let r' := if b % 2 = 1 then f.mul r a else r
    if b / 2 = 0 then r' else powiLoop f r' (f.mul a a) (b / 2)
termination_by b
decreasing_by omega

/-- compiler-rt `__powidf2`, what `f64::powi` compiles to: square and multiply, reciprocal at the end. -/
def powiCompilerRt (f : Fmt) (a : Fl) (b : Int) : Fl :=
  let r := powiLoop f (f.ofInt 1) a b.natAbs
  if b < 0 then f.div (f.ofInt 1) r else r

end Diman
