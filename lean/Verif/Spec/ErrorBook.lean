import Verif.Model.SoftFloat
import Verif.Model.NumTraits
import Verif.Spec.Ideal
import Verif.Spec.Float
/-!
# Running error analysis (C51)
For every number of a computation: its exact value, a bound for the absolute error with which a floating-point computation knows it, and
whether nothing has overflowed and no denominator or radicand was lost in its error. Nothing in the code keeps such books: they are a
specification of how accurate the generated API is. The bounds are the textbook ones: an operation passes on the errors of its operands
and then rounds once.
-/
namespace Diman

/-- Rounding to nearest is off by at most this fraction (half a unit in the last place)... -/
noncomputable def FloatTy.unitRoundoff : FloatTy → ℝ
  | .f32 => 2 ^ (-24 : ℤ)
  | .f64 => 2 ^ (-53 : ℤ)
/-- ... plus this (half the smallest subnormal number). -/
noncomputable def FloatTy.underflowUnit : FloatTy → ℝ
  | .f32 => 2 ^ (-150 : ℤ)
  | .f64 => 2 ^ (-1075 : ℤ)
/-- Nothing below this overflows. -/
noncomputable def FloatTy.large : FloatTy → ℝ
  | .f32 => 2 ^ (127 : ℤ)
  | .f64 => 2 ^ (1023 : ℤ)

/-- An exact value, a bound for the error, and whether the bound can be relied on. -/
structure Bounded where
  value : ℝ
  err : ℝ
  ok : Prop

namespace Bounded

/-- A number known exactly. -/
def exactly (q : ℝ) : Bounded := ⟨q, 0, True⟩

/-- A result with exact value `q`, known up to `δ` before it is rounded. -/
noncomputable def rounded (t : FloatTy) (q δ : ℝ) (ok : Prop) : Bounded :=
  ⟨q, δ + (t.unitRoundoff * (|q| + δ) + t.underflowUnit), ok ∧ |q| + δ < t.large⟩

/-- Sums and differences add the errors. -/
noncomputable def add (t : FloatTy) (a b : Bounded) : Bounded := rounded t (a.value + b.value) (a.err + b.err) (a.ok ∧ b.ok)
noncomputable def sub (t : FloatTy) (a b : Bounded) : Bounded := rounded t (a.value - b.value) (a.err + b.err) (a.ok ∧ b.ok)
/-- `(a ± δ)(b ± ε)` -/
noncomputable def mul (t : FloatTy) (a b : Bounded) : Bounded :=
  rounded t (a.value * b.value) (|a.value| * b.err + |b.value| * a.err + a.err * b.err) (a.ok ∧ b.ok)
/-- `(a ± δ)/(b ± ε)`, where `b` must be distinguishable from zero -/
noncomputable def div (t : FloatTy) (a b : Bounded) : Bounded :=
  rounded t (a.value / b.value) ((|a.value| * b.err + |b.value| * a.err) / (|b.value| * (|b.value| - b.err))) (a.ok ∧ b.ok ∧ b.err < |b.value|)
/-- `√(a ± δ)`, where `a - δ` must not be negative -/
noncomputable def sqrt (t : FloatTy) (a : Bounded) : Bounded := rounded t (Real.sqrt a.value) (a.err / Real.sqrt a.value) (a.ok ∧ a.err ≤ a.value)
/-- Functions about which nothing is claimed. -/
def unknown (q : ℝ) : Bounded := ⟨q, 0, False⟩
/-- `f64 as f32` -/
noncomputable def toF32 (a : Bounded) : Bounded := rounded .f32 a.value a.err a.ok
/-- A conversion factor that is stored must not come near the bottom of the range. -/
noncomputable def stored (a : Bounded) : Bounded := ⟨a.value, a.err, a.ok ∧ a.err + 2 ^ (-960 : ℤ) ≤ |a.value|⟩
/-- Books are kept for one float type only. -/
def only (t₀ t : FloatTy) (a : Bounded) : Bounded := ⟨a.value, a.err, a.ok ∧ t = t₀⟩

end Bounded

section
variable {K : Type} (mul : K → K → K)
/-- Square and multiply as in compiler-rt, for any multiplication (compare `powiLoop`). -/
def squareMultiply (r a : K) (b : Nat) : K :=
  if _h : b = 0 then r
  else
    let r' := if b % 2 = 1 then mul r a else r
    if b / 2 = 0 then r' else squareMultiply r' (mul a a) (b / 2)
termination_by b
decreasing_by omega

/-- compiler-rt's `powi` for any multiplication and division (compare `powiCompilerRt`). -/
def powiStd (div : K → K → K) (one : K) (a : K) (b : Int) : K :=
  let r := squareMultiply mul one a b.natAbs
  if b < 0 then div one r else r

/-- First loop of num-traits' `pow` (compare `powSkip`). -/
def squareSkip (base : K) (exp : Nat) : K × Nat :=
  if _h : exp = 0 ∨ exp % 2 = 1 then (base, exp) else squareSkip (mul base base) (exp / 2)
termination_by exp
decreasing_by omega

/-- Second loop of num-traits' `pow` (compare `powAcc`). -/
def squareAcc (acc base : K) (exp : Nat) : K :=
  if _h : exp ≤ 1 then acc
  else squareAcc (if exp / 2 % 2 = 1 then mul acc (mul base base) else acc) (mul base base) (exp / 2)
termination_by exp
decreasing_by omega

/-- num-traits' `pow` (compare `powNumTraits`). -/
def powNoStd (one : K) (base : K) (exp : Nat) : K :=
  if exp = 0 then one
  else if (squareSkip mul base exp).2 = 1 then (squareSkip mul base exp).1
  else squareAcc mul (squareSkip mul base exp).1 (squareSkip mul base exp).1 (squareSkip mul base exp).2

/-- num-traits' `powi` (compare `powiNumTraits`). -/
def powiNoStd (div : K → K → K) (one : K) (a : K) (b : Int) : K :=
  if b < 0 then powNoStd mul one (div one a) b.natAbs else powNoStd mul one a b.natAbs

/-- `powi` with or without `std`. -/
def powiBuild (std : Bool) (div : K → K → K) (one : K) (a : K) (b : Int) : K :=
  if std then powiStd mul div one a b else powiNoStd mul div one a b
end

open Classical in
/-- The primitive operations on books for float type `t₀`. A power is that of the exact value; its error is that of the multiplications
and the division that compute it. Comparisons are those of the exact values (nothing is claimed about comparisons). -/
@[reducible] noncomputable def bookPrims [IdealFns] (std : Bool) (t₀ : FloatTy) : Prims Bounded Bounded where
  zero t := (Bounded.exactly 0).only t₀ t
  one t := (Bounded.exactly 1).only t₀ t
  add t a b := (Bounded.add t a b).only t₀ t
  sub t a b := (Bounded.sub t a b).only t₀ t
  mul t a b := (Bounded.mul t a b).only t₀ t
  div t a b := (Bounded.div t a b).only t₀ t
  neg _ a := ⟨-a.value, a.err, a.ok⟩
  abs _ a := ⟨|a.value|, a.err, a.ok⟩
  min _ a b := ⟨Min.min a.value b.value, Max.max a.err b.err, a.ok ∧ b.ok⟩
  max _ a b := ⟨Max.max a.value b.value, Max.max a.err b.err, a.ok ∧ b.ok⟩
  clamp t a lo hi :=
    if lo.ok ∧ hi.ok ∧ t = t₀ ∧ lo.value ≤ hi.value ∧ lo.value + lo.err ≤ hi.value - hi.err then
      some ⟨Max.max lo.value (Min.min a.value hi.value), Max.max a.err (Max.max lo.err hi.err), a.ok⟩
    else none
  powi t a e := (powiBuild (Bounded.mul t) std (Bounded.div t) (.exactly 1) a e).only t₀ t
  sqrt t a := (Bounded.sqrt t a).only t₀ t
  cbrt _ a := .unknown (realCbrt a.value)
  fn f t a := .unknown (IdealFns.fn f t a.value)
  eq _ a b := decide (a.value = b.value)
  lt _ a b := decide (a.value < b.value)
  isNan _ _ := false
  into t m := match t with
    | .f32 => (Bounded.toF32 m).only t₀ .f32
    | .f64 => m.only t₀ .f64
  magMul a b := (Bounded.mul .f64 a b).stored
  magDiv a b := (Bounded.div .f64 a b).stored

/-- What the books say about a float: it is finite, and its value is that of the books up to the error. -/
def Bounded.Holds (t : FloatTy) (x : Fl) (b : Bounded) : Prop :=
  b.ok → ∃ v : ℚ, t.fmt.val x = some v ∧ |(v : ℝ) - b.value| ≤ b.err

/-- What the books say about a stored conversion factor. -/
def Bounded.HoldsFactor (lib : FloatLib) (m : Magnitude) (b : Bounded) : Prop := Bounded.Holds .f64 (m.intoF64 lib) b

/-- The platform computes as IEEE 754 asks: `sqrt` is correctly rounded, `powi` is compiler-rt's with `std` and num-traits' without. -/
structure PlatformFns.Ieee (P : PlatformFns) (std : Bool) : Prop where
  lib : ∃ powf, P.lib = buildLib std powf
  powi : ∀ (t : FloatTy) x e, P.powi t x e = if std then powiCompilerRt t.fmt x e else powiNumTraits t.fmt x e
  sqrt : ∀ (t : FloatTy) (x : Fl) (v : ℚ), t.fmt.val x = some v → 0 ≤ v → ∃ z : ℚ, t.fmt.val (P.sqrt t x) = some z ∧
    |(z : ℝ) - Real.sqrt v| ≤ t.unitRoundoff * Real.sqrt v + t.underflowUnit

mutual
/-- A calculation over units `U`: variables, units, operators between quantities and numbers, generated functions, local variables. -/
inductive Calc (E U : Type) where
  | var (x : Nat)
  | unit (u : U)
  /-- an operator of implementation `o` at the two storage types -/
  | op (o : OperatorTrait) (sl sr : Storage) (l r : Calc E U)
  /-- a generated function, called at the given argument types -/
  | call (f : Fn E) (tys : List (Ty E)) (args : Calcs E U)
  /-- `let x = a; b`: the variables are numbered from the innermost -/
  | letIn (a b : Calc E U)
/-- Argument lists. -/
inductive Calcs (E U : Type) where
  | nil
  | cons (a : Calc E U) (as : Calcs E U)
end

section
variable {E U K M : Type} [FieldOps E] [DecidableEq E] [Prims K M]
mutual
/-- The value of a calculation, in any arithmetic; `none` is a panic or a type error. -/
def Calc.eval (n : Nat) (fac : U → M) (ρ : List (Val K M)) : Calc E U → Option (Val K M)
  | .var x => ρ[x]?
  | .unit u => some (.unit (fac u))
  | .op o sl sr l r => do
    let a ← l.eval n fac ρ
    let b ← r.eval n fac ρ
    o.run sl sr a b
  | .call f tys args => do
    let vs ← args.eval n fac ρ
    f.run n tys vs
  | .letIn a b => do
    let v ← a.eval n fac ρ
    b.eval n fac (v :: ρ)
/-- Arguments, left to right. -/
def Calcs.eval (n : Nat) (fac : U → M) (ρ : List (Val K M)) : Calcs E U → Option (List (Val K M))
  | .nil => some []
  | .cons a as => do
    let v ← a.eval n fac ρ
    let vs ← as.eval n fac ρ
    return v :: vs
end
end

/-- Two values of different arithmetics are of the same kind, their numbers related by `R` and their factors by `S`. Nothing is said about
truth values and orderings. -/
def Val.Rel {K M K' M' : Type} (R : K → K' → Prop) (S : M → M' → Prop) : Val K M → Val K' M' → Prop
  | .quantity r, .quantity r' => List.Forall₂ R r r'
  | .bare r, .bare r' => List.Forall₂ R r r'
  | .unit m, .unit m' => S m m'
  | .runtimeUnit m, .runtimeUnit m' => S m m'
  | .bool _, .bool _ => True
  | .ordering _, .ordering _ => True
  | _, _ => False

end Diman
