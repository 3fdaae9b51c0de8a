import Verif.Spec.Program
/-!
# Programs without units (C74)
What remains of a user program (`Spec/Program.lean`) when the types of the unit system are forgotten: a quantity is its number (or glam vector), a unit is
its conversion factor, operators are those of core and glam. There are no dimensions in this language.
-/
namespace Diman

/-- Values of a program without units: numbers and glam vectors, conversion factors, truth values, orderings. -/
inductive PVal (K M : Type) where
  | num (r : Raw K)
  | factor (m : M)
  | bool (b : Bool)
  | ordering (o : Option Ordering)

/-- The functions of a program without units. -/
inductive PFn where
  /-- the argument itself -/
  | keep
  | neg | abs | sqrt | cbrt | fn (f : FloatFn) | powi (i : Int) | min | max | clamp | isNan
  | zero (s : Storage)
  /-- the sum of all arguments -/
  | sum (s : Storage)
  /-- `0 < x`, `0 <= x`, `x < 0`, `x <= 0` -/
  | gtZero | geZero | ltZero | leZero
  /-- glam: vector of components, `x * V::X`, component, replace a component, `length`, `distance`, `distance_squared`, `normalize`, `dot` -/
  | vec | axisVec (a : Axis) (s : Storage) | axis (a : Axis) | setAxis (a : Axis) | length | distance | distanceSquared | normalize | dot
  /-- `x * m`, `m * x`, `x / m`, `m / x` for a number `x` and a factor `m` converted to a float; product and quotient of factors -/
  | timesFactor | factorTimes | overFactor | factorOver | mulFactors | divFactors

mutual
/-- Expressions of a program without units. -/
inductive PTm (U K M : Type) where
  | var (x : Nat)
  | num (r : Raw K)
  | factor (u : U)
  /-- an operator of the storage types -/
  | op (o : Trait) (sl sr : Storage) (l r : PTm U K M)
  | call (f : PFn) (s : Storage) (args : PTms U K M)
  | plain (g : List (PVal K M) → Option (PVal K M)) (args : PTms U K M)
  | ite (c a b : PTm U K M)
/-- Argument lists. -/
inductive PTms (U K M : Type) where
  | nil
  | cons (a : PTm U K M) (as : PTms U K M)
end

/-- Statements, as in `Cmd`. -/
inductive PCmd (U K M : Type) where
  | skip
  | assign (x : Nat) (t : PTm U K M)
  | letIn (t : PTm U K M) (c : PCmd U K M)
  | seq (c d : PCmd U K M)
  | ite (b : PTm U K M) (c d : PCmd U K M)
  | loop (b : PTm U K M) (c : PCmd U K M)
  | vecIn (c : PCmd U K M)
  | push (a : Nat) (t : PTm U K M)
  | load (x a : Nat) (g : List (PVal K M) → Option Nat) (args : PTms U K M)
  | store (a : Nat) (g : List (PVal K M) → Option Nat) (args : PTms U K M) (t : PTm U K M)
  | len (x a : Nat)
  | call (x f : Nat) (args : PTms U K M) (vecs : List Nat)

/-- A function of a program without units. -/
structure PFunc (U K M : Type) where
  body : PCmd U K M
  result : PTm U K M

/-- The variables and vectors in scope. -/
structure PStore (K M : Type) where
  vars : List (PVal K M)
  vecs : List (List (PVal K M))

section
variable {U K M : Type} [Prims K M] [NatCast K]

/-- What an operator of core or glam returns. -/
def RawOut.pval : RawOut K → PVal K M
  | .raw r => .num r
  | .bool b => .bool b
  | .ordering o => .ordering o

/-- An operator on two numbers (or vectors). -/
def PVal.op (o : Trait) (sl sr : Storage) : PVal K M → PVal K M → Option (PVal K M)
  | .num a, .num b => (rawOp M o sl sr a b).map RawOut.pval
  | _, _ => none

/-- The sum of numbers (or vectors), starting with `total`. -/
def sumNums (s : Storage) (total : Raw K) : List (PVal K M) → Option (PVal K M)
  | [] => some (.num total)
  | .num r :: rest => sumNums s (List.zipWith (Prims.add M s.base) total r) rest
  | _ => none

/-- The functions, on numbers of float type `s.base`. -/
def PFn.run (s : Storage) : PFn → List (PVal K M) → Option (PVal K M)
  | .keep, [.num r] => some (.num r)
  | .neg, [.num r] => some (.num (r.map (Prims.neg M s.base)))
  | .abs, [.num r] => some (.num (r.map (Prims.abs M s.base)))
  | .sqrt, [.num [x]] => some (.num [Prims.sqrt M s.base x])
  | .cbrt, [.num [x]] => some (.num [Prims.cbrt M s.base x])
  | .fn f, [.num [x]] => some (.num [Prims.fn M f s.base x])
  | .powi i, [.num [x]] => some (.num [Prims.powi M s.base x i])
  | .min, [.num r, .num r'] => some (.num (List.zipWith (Prims.min M s.base) r r'))
  | .max, [.num r, .num r'] => some (.num (List.zipWith (Prims.max M s.base) r r'))
  | .clamp, [.num [x], .num [lo], .num [hi]] => (Prims.clamp M s.base x lo hi).map fun y => .num [y]
  | .isNan, [.num [x]] => some (.bool (Prims.isNan M s.base x))
  | .zero s', [] => some (.num (List.replicate s'.numDims (Prims.zero M s'.base)))
  | .sum s', args => sumNums s' (List.replicate s'.numDims (Prims.zero M s'.base)) args
  | .gtZero, [.num [x]] => some (.bool (Prims.lt M s.base (Prims.zero M s.base) x))
  | .geZero, [.num [x]] => some (.bool (Prims.lt M s.base (Prims.zero M s.base) x || Prims.eq M s.base (Prims.zero M s.base) x))
  | .ltZero, [.num [x]] => some (.bool (Prims.lt M s.base x (Prims.zero M s.base)))
  | .leZero, [.num [x]] => some (.bool (Prims.lt M s.base x (Prims.zero M s.base) || Prims.eq M s.base x (Prims.zero M s.base)))
  | .vec, [.num [x], .num [y]] => some (.num [x, y])
  | .vec, [.num [x], .num [y], .num [z]] => some (.num [x, y, z])
  | .axisVec a s', [.num [x]] => some (.num ((axisRaw M a s').map (Prims.mul M s'.base x)))
  | .axis a, [.num r] => r[a.idx]?.map fun x => .num [x]
  | .setAxis a, [.num r, .num [x]] => some (.num (r.set a.idx x))
  | .length, [.num r] => (rawLength M s.base r).map fun x => .num [x]
  | .distance, [.num r, .num r'] => (rawLength M s.base (List.zipWith (Prims.sub M s.base) r r')).map fun x => .num [x]
  | .distanceSquared, [.num r, .num r'] =>
    (rawDot M s.base (List.zipWith (Prims.sub M s.base) r r') (List.zipWith (Prims.sub M s.base) r r')).map fun x => .num [x]
  | .normalize, [.num r] => (rawLength M s.base r).map fun l => .num (r.map fun x => Prims.mul M s.base x (Prims.div M s.base (Prims.one M s.base) l))
  | .dot, [.num r, .num r'] => (rawDot M s.base r r').map fun x => .num [x]
  | .timesFactor, [.num r, .factor m] | .timesFactor, [.factor m, .num r] => some (.num (r.map fun x => Prims.mul M s.base x (Prims.into s.base m)))
  | .factorTimes, [.factor m, .num r] => some (.num (r.map fun x => Prims.mul M s.base (Prims.into s.base m) x))
  | .overFactor, [.num r, .factor m] | .overFactor, [.factor m, .num r] => some (.num (r.map fun x => Prims.div M s.base x (Prims.into s.base m)))
  | .factorOver, [.factor m, .num r] => some (.num (r.map fun x => Prims.div M s.base (Prims.into s.base m) x))
  | .mulFactors, [.factor m, .factor m'] => some (.factor (Prims.magMul K m m'))
  | .divFactors, [.factor m, .factor m'] => some (.factor (Prims.magDiv K m m'))
  | _, _ => none

mutual
/-- Running an expression without units. -/
def PTm.eval (fac : U → M) (ρ : List (PVal K M)) : PTm U K M → Option (PVal K M)
  | .var x => ρ[x]?
  | .num r => some (.num r)
  | .factor u => some (.factor (fac u))
  | .op o sl sr l r => do
    let a ← l.eval fac ρ
    let b ← r.eval fac ρ
    PVal.op o sl sr a b
  | .call f s args => do
    let vs ← args.eval fac ρ
    f.run s vs
  | .plain g args => do
    let vs ← args.eval fac ρ
    g vs
  | .ite c a b => do
    match ← c.eval fac ρ with
    | .bool true => a.eval fac ρ
    | .bool false => b.eval fac ρ
    | _ => none
/-- Running an argument list. -/
def PTms.eval (fac : U → M) (ρ : List (PVal K M)) : PTms U K M → Option (List (PVal K M))
  | .nil => some []
  | .cons a as => do
    let v ← a.eval fac ρ
    let vs ← as.eval fac ρ
    return v :: vs
end

/-- Running a statement without units. -/
def PCmd.exec (fac : U → M) (F : List (PFunc U K M)) : Nat → PCmd U K M → PStore K M → Option (PStore K M)
  | _, .skip, σ => some σ
  | _, .assign x t, σ => do
    let v ← t.eval fac σ.vars
    return { σ with vars := σ.vars.set x v }
  | fuel, .letIn t c, σ => do
    let v ← t.eval fac σ.vars
    let σ' ← c.exec fac F fuel { σ with vars := v :: σ.vars }
    return { σ' with vars := σ'.vars.tail }
  | fuel, .seq c d, σ => do
    let σ' ← c.exec fac F fuel σ
    d.exec fac F fuel σ'
  | fuel, .ite b c d, σ => do
    match ← b.eval fac σ.vars with
    | .bool true => c.exec fac F fuel σ
    | .bool false => d.exec fac F fuel σ
    | _ => none
  | 0, .loop _ _, _ => none
  | fuel + 1, .loop b c, σ => do
    match ← b.eval fac σ.vars with
    | .bool true => do
      let σ' ← c.exec fac F fuel σ
      (PCmd.loop b c).exec fac F fuel σ'
    | .bool false => some σ
    | _ => none
  | fuel, .vecIn c, σ => do
    let σ' ← c.exec fac F fuel { σ with vecs := [] :: σ.vecs }
    return { σ' with vecs := σ'.vecs.tail }
  | _, .push a t, σ => do
    let v ← t.eval fac σ.vars
    let l ← σ.vecs[a]?
    return { σ with vecs := σ.vecs.set a (l ++ [v]) }
  | _, .load x a g args, σ => do
    let i ← g (← args.eval fac σ.vars)
    let l ← σ.vecs[a]?
    let v ← l[i]?
    return { σ with vars := σ.vars.set x v }
  | _, .store a g args t, σ => do
    let i ← g (← args.eval fac σ.vars)
    let v ← t.eval fac σ.vars
    let l ← σ.vecs[a]?
    if i < l.length then return { σ with vecs := σ.vecs.set a (l.set i v) } else none
  | _, .len x a, σ => do
    let l ← σ.vecs[a]?
    return { σ with vars := σ.vars.set x (.num [(l.length : K)]) }
  | 0, .call .., _ => none
  | fuel + 1, .call x f args vecs, σ => do
    let fn ← F[f]?
    let vals ← args.eval fac σ.vars
    let passed ← vecs.mapM (σ.vecs[·]?)
    let σ' ← fn.body.exec fac F fuel ⟨vals, passed⟩
    let v ← fn.result.eval fac σ'.vars
    return ⟨σ.vars.set x v, (vecs.zip σ'.vecs).foldl (fun vs p => vs.set p.1 p.2) σ.vecs⟩
termination_by fuel c => (fuel, sizeOf c)

/-! ## Forgetting the units -/

/-- A quantity is its number, a unit its factor. -/
def Val.erase : Val K M → PVal K M
  | .quantity r | .bare r => .num r
  | .unit m | .runtimeUnit m => .factor m
  | .bool b => .bool b
  | .ordering o => .ordering o

/-- Plain values as arguments of a function of plain values. -/
def PVal.plain : PVal K M → Val K M
  | .num r => .bare r
  | .factor m => .unit m
  | .bool b => .bool b
  | .ordering o => .ordering o

variable {E : Type}

/-- The function without units that a generated function stands for. -/
def Fn.erase : Fn E → List (Ty E) → PFn
  | .value, _ | .valueRef, _ | .deref, _ | .valueUnchecked, _ | .valueUncheckedRef, _ | .newUnchecked _, _ | .from, _ => .keep
  | .default s _, _ | .zero s _, _ => .zero s
  | .valueIn, _ => .overFactor
  | .neg, _ => .neg
  | .sum s _, _ => .sum s
  | .abs, _ => .abs
  | .dimensionless f, _ => .fn f
  | .squared, _ => .powi 2
  | .cubed, _ => .powi 3
  | .powi i, _ => .powi i
  | .sqrt, _ => .sqrt
  | .cbrt, _ => .cbrt
  | .min, _ => .min
  | .max, _ => .max
  | .clamp, _ => .clamp
  | .isPositive, _ => .gtZero
  | .isPositiveOrZero, _ => .geZero
  | .isNegative, _ => .ltZero
  | .isNegativeOrZero, _ => .leZero
  | .isNan, _ => .isNan
  | .vnew _, _ => .vec
  | .newAxis a s, _ => .axisVec a s
  | .axis a, _ => .axis a
  | .setAxis a, _ => .setAxis a
  | .length, _ => .length
  | .distance, _ => .distance
  | .distanceSquared, _ => .distanceSquared
  | .normalize, _ => .normalize
  | .dot, _ => .dot
  | .unitNew, _ => .timesFactor
  | .unitMul, [.unit _, .unit _] => .mulFactors
  | .unitMul, [_, .bare _] => .factorTimes
  | .unitMul, _ => .timesFactor
  | .unitDiv, [.unit _, .unit _] => .divFactors
  | .unitDiv, [_, .bare _] => .factorOver
  -- also for a unit divided by a quantity, see C23
  | .unitDiv, _ => .overFactor

mutual
/-- An expression without its units. -/
def Tm.erase : Tm E U K M → PTm U K M
  | .var x => .var x
  | .num _ r => .num r
  | .unit u => .factor u
  | .op o i l r => .op o.name (i.st o.storageTypes.1) (i.st o.storageTypes.2) l.erase r.erase
  | .call f tys args => .call (f.erase tys) ((storageOf tys).getD .f64) args.erase
  | .plain _ g args => .plain (fun vs => (g (vs.map PVal.plain)).map Val.erase) args.erase
  | .ite c a b => .ite c.erase a.erase b.erase
/-- An argument list without its units. -/
def Tms.erase : Tms E U K M → PTms U K M
  | .nil => .nil
  | .cons a as => .cons a.erase as.erase
end

/-- A statement without its units. -/
def Cmd.erase : Cmd E U K M → PCmd U K M
  | .skip => .skip
  | .assign x t => .assign x t.erase
  | .letIn t c => .letIn t.erase c.erase
  | .seq c d => .seq c.erase d.erase
  | .ite b c d => .ite b.erase c.erase d.erase
  | .loop b c => .loop b.erase c.erase
  | .vecIn c => .vecIn c.erase
  | .push a t => .push a t.erase
  | .load x a g args => .load x a (fun vs => g (vs.map PVal.plain)) args.erase
  | .store a g args t => .store a (fun vs => g (vs.map PVal.plain)) args.erase t.erase
  | .len x a => .len x a
  | .call x f args vecs => .call x f args.erase vecs

/-- A function without its units. -/
def Func.erase (f : Func E U K M) : PFunc U K M := ⟨f.body.erase, f.result.erase⟩

/-- A store without its units. -/
def Store.erase (σ : Store K M) : PStore K M := ⟨σ.vars.map Val.erase, σ.vecs.map (List.map Val.erase)⟩
end
end Diman
