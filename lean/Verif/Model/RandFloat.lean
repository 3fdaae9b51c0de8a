import Verif.Model.Descr
import Verif.Model.SoftFloat
/-!
# rand's `UniformFloat`
Models `UniformFloat<f32>` and `UniformFloat<f64>` of rand 0.8.5 (/repo/Cargo.toml:45), src/distributions/uniform.rs, which the generated
`UniformQuantity` wraps (crates/diman_unit_system/src/codegen/rand.rs:24). Not code of the repository; it is here so that C35 does not have to assume
what the float sampler does. The `debug_assert!`s of rand (finite bounds) are left out: a bound that is not finite fails one of the `assert!`s too.
-/
namespace Diman

/-- rand_core `RngCore`: any source of 32- and 64-bit words. -/
structure Rng (G : Type) where
  nextU32 : G → BitVec 32 × G
  nextU64 : G → BitVec 64 × G

namespace FloatTy
/-- uniform.rs `uniform_float_impl! { f32, u32, f32, u32, 32 - 23 }`, `{ f64, u64, f64, u64, 64 - 52 }`: the number of fraction bits. -/
def fractionBits : FloatTy → Nat
  | .f32 => 23
  | .f64 => 52
/-- `rng.gen::<u32>() >> 9`, `rng.gen::<u64>() >> 12` -/
def randomFraction {G : Type} (R : Rng G) (t : FloatTy) (g : G) : Nat × G :=
  match t with
  | .f32 => ((R.nextU32 g).1.toNat >>> 9, (R.nextU32 g).2)
  | .f64 => ((R.nextU64 g).1.toNat >>> 12, (R.nextU64 g).2)
/-- `u32::MAX >> 9`, `u64::MAX >> 12` -/
def maxFraction (t : FloatTy) : Nat := match t with
  | .f32 => (2 ^ 32 - 1) >>> 9
  | .f64 => (2 ^ 64 - 1) >>> 12
/-- rand utils.rs `into_float_with_exponent(0)`: the fraction bits with exponent 0, a number in `[1, 2)`. -/
def ofFraction (t : FloatTy) (k : Nat) : Fl := .num false ((match t with | .f32 => 127 | .f64 => 1023) * 2 ^ t.fractionBits + k)
/-- `x.into_float_with_exponent(0) - 1.0`, a number in `[0, 1)` -/
def unitInterval (t : FloatTy) (k : Nat) : Fl := t.fmt.add (t.ofFraction k) (t.fmt.ofInt 1).neg
/-- `max_rand` -/
def maxRand (t : FloatTy) : Fl := t.unitInterval t.maxFraction
end FloatTy

/-- uniform.rs `struct UniformFloat { low, scale }` -/
structure RandUniform where
  low : Fl
  scale : Fl
deriving DecidableEq

/-- `x.is_finite()` -/
def FloatTy.isFinite (t : FloatTy) : Fl → Bool
  | .nan => false
  | .num _ n => !t.fmt.isInf n

/-- The `loop` in `new` and `new_inclusive`: while the greatest sample is too great, take the next smaller scale
(`from_bits(self.to_bits() - 1)`, an underflow at zero would be a panic). -/
def shrinkScale (tooGreat : Fl → Bool) (neg : Bool) : Nat → Option Fl
  | 0 => if tooGreat (.num neg 0) then none else some (.num neg 0)
  | n + 1 => if tooGreat (.num neg (n + 1)) then shrinkScale tooGreat neg n else some (.num neg (n + 1))

/-- `scale * max_rand + low` -/
def FloatTy.greatest (t : FloatTy) (low scale : Fl) : Fl := t.fmt.add (t.fmt.mul scale t.maxRand) low

/-- The assertion that the scale is finite, and the loop. -/
def FloatTy.prepare (t : FloatTy) (tooGreat : Fl → Bool) (low scale : Fl) : Option RandUniform :=
  match scale with
  | .num neg n => if t.isFinite (.num neg n) then (shrinkScale tooGreat neg n).map fun s => ⟨low, s⟩ else none
  | .nan => none

/-- uniform.rs `UniformSampler for UniformFloat`: `new`, `new_inclusive` and `sample`. -/
def randUniformFloat {G : Type} (R : Rng G) : UniformFloat Fl RandUniform G where
  new t low high :=
    if low.lt high then
      t.prepare (fun s => let x := t.greatest low s; high.lt x || x.feq high) low (t.fmt.add high low.neg)
    else none
  newInclusive t low high :=
    if low.lt high || low.feq high then
      t.prepare (fun s => high.lt (t.greatest low s)) low (t.fmt.div (t.fmt.add high low.neg) t.maxRand)
    else none
  sample t u g :=
    let (k, g') := t.randomFraction R g
    (t.fmt.add (t.fmt.mul (t.unitInterval k) u.scale) u.low, g')

end Diman
