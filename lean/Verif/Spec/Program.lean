import Verif.Spec.Api
import Verif.Spec.Ideal
/-!
# User programs and changes of base units (C21)
A user program is built from the generated API (operators, functions, units), number literals, variables, conditionals, loops, local
variables, growable vectors, user-defined (also recursive) functions, and arbitrary functions of plain values (numbers, truth values,
orderings). Functions with dimensions as parameters are in `Spec/Generic.lean`; functions generic in the storage type, traits and closures over
quantities are not modelled. The arithmetic is a parameter; by default numbers are exact (`Spec/Ideal.lean`).

Changing the base units: if the unit of base dimension `k` becomes `s k` times smaller, every stored number of dimension `d` and the
factor of every unit of dimension `d` is multiplied by `∏ k, s k ^ d k`. Plain numbers, truth values and orderings stay.
-/
namespace Diman
open LawfulExponent

section
variable {E : Type} [Exponent E] [LawfulExponent E] [FieldOps E]

/-- `∏ k, s k ^ d k`: the factor by which numbers of dimension `d` change when base unit `k` becomes `s k` times smaller. -/
noncomputable def DimVal.scale (s : List ℝ) (d : DimVal E) : ℝ := (List.zipWith (fun (x : ℝ) (q : ℚ) => x ^ (q : ℝ)) s d.vec).prod

/-- The factor for a value of a type: plain values do not change. -/
noncomputable def Ty.scale (s : List ℝ) : Ty E → ℝ
  | .quantity _ d => DimVal.scale s d
  | .unit d => DimVal.scale s d
  | .runtimeUnit d => DimVal.scale s d
  | .bare _ => 1
  | .bool => 1
  | .ordering => 1

/-- Multiply every number in a value by `c`. -/
noncomputable def Val.smul (c : ℝ) : Val ℝ ℝ → Val ℝ ℝ
  | .quantity r => .quantity (r.map (· * c))
  | .bare r => .bare (r.map (· * c))
  | .unit m => .unit (m * c)
  | .runtimeUnit m => .runtimeUnit (m * c)
  | .bool b => .bool b
  | .ordering o => .ordering o

/-- A value of type `t` after the change of base units. -/
noncomputable def Val.rescale (s : List ℝ) (t : Ty E) (v : Val ℝ ℝ) : Val ℝ ℝ := v.smul (t.scale s)

/-- Values of the types `ts` after the change of base units. -/
noncomputable def rescaleAll (s : List ℝ) (ts : List (Ty E)) (vs : List (Val ℝ ℝ)) : List (Val ℝ ℝ) := List.zipWith (Val.rescale s) ts vs
end

/-- Types that have nothing to do with units. -/
def Ty.isPlain {E : Type} : Ty E → Bool
  | .bare _ | .bool | .ordering => true
  | _ => false

mutual
/-- Expressions of a user program over units `U`. -/
inductive Tm (E U : Type) (K : Type := ℝ) (M : Type := ℝ) where
  | var (x : Nat)
  /-- a number (or glam vector) literal -/
  | num (s : Storage) (r : Raw K)
  /-- a unit or constant of the unit system -/
  | unit (u : U)
  /-- an operator, through the generated implementation `o` instantiated by `i`; a compound assignment gives the new left operand -/
  | op (o : OperatorTrait) (i : Inst E) (l r : Tm E U K M)
  /-- a generated function, called at the given argument types -/
  | call (f : Fn E) (tys : List (Ty E)) (args : Tms E U K M)
  /-- any function of plain values with plain result of type `t` -/
  | plain (t : Ty E) (g : List (Val K M) → Option (Val K M)) (args : Tms E U K M)
  | ite (c a b : Tm E U K M)
/-- Argument lists. -/
inductive Tms (E U : Type) (K : Type := ℝ) (M : Type := ℝ) where
  | nil
  | cons (a : Tm E U K M) (as : Tms E U K M)
end

/-- Calls that do not bypass the unit system: not the `_unchecked` functions, and reading out in a unit of the same dimension. -/
def CheckedCall {E : Type} [FieldOps E] (n : Nat) : Fn E → List (Ty E) → Prop
  | .valueUnchecked, _ | .valueUncheckedRef, _ | .newUnchecked _, _ => False
  | .valueIn, [q, u] => u.dim n = q.dim n
  | _, _ => True

/-- The quotients that the generated code gets wrong (see C23): a unit divided by a quantity, and a number divided by a unit. -/
def WrongQuotient {E : Type} : List (Ty E) → Prop
  | [.unit _, .quantity ..] | [.runtimeUnit _, .quantity ..] | [.bare _, .unit _] | [.bare _, .runtimeUnit _] => True
  | _ => False

/-- The dimensions a call fixes by type annotation have `n` exponents in normal form. -/
def Fn.AnnotWF {E : Type} [Exponent E] [LawfulExponent E] (n : Nat) : Fn E → Prop
  | .newUnchecked d | .default _ d | .sum _ d | .zero _ d => d.length = n ∧ d.Canonical
  | _ => True

/-- Checked calls without the wrong quotients; dimensions in type annotations are dimensions of the unit system. -/
def FaithfulCall {E : Type} [Exponent E] [LawfulExponent E] [FieldOps E] (n : Nat) (f : Fn E) (tys : List (Ty E)) : Prop :=
  CheckedCall n f tys ∧ ¬ (f = .unitDiv ∧ WrongQuotient tys) ∧ f.AnnotWF n

/-- Statements of a user program. Variables and vectors are numbered, the innermost declaration is number 0. -/
inductive Cmd (E U : Type) (K : Type := ℝ) (M : Type := ℝ) where
  | skip
  /-- `x = t;` -/
  | assign (x : Nat) (t : Tm E U K M)
  /-- `let mut _ = t; c` -/
  | letIn (t : Tm E U K M) (c : Cmd E U K M)
  | seq (c d : Cmd E U K M)
  | ite (b : Tm E U K M) (c d : Cmd E U K M)
  /-- `while b { c }` -/
  | loop (b : Tm E U K M) (c : Cmd E U K M)
  /-- `let mut _ = Vec::new(); c` -/
  | vecIn (c : Cmd E U K M)
  /-- `a.push(t);` -/
  | push (a : Nat) (t : Tm E U K M)
  /-- `x = a[g(args)];` where `g` computes the index from plain values -/
  | load (x a : Nat) (g : List (Val K M) → Option Nat) (args : Tms E U K M)
  /-- `a[g(args)] = t;` -/
  | store (a : Nat) (g : List (Val K M) → Option Nat) (args : Tms E U K M) (t : Tm E U K M)
  /-- `x = a.len() as f64;` -/
  | len (x a : Nat)
  /-- `x = f(args, &mut v1, &mut v2, ...);` for the vectors `vecs` -/
  | call (x f : Nat) (args : Tms E U K M) (vecs : List Nat)

/-- A user-defined function: `fn f(params, vecs: &mut Vec<_>) -> ret { body; result }`. The function may assign to its parameters. -/
structure Func (E U : Type) (K : Type := ℝ) (M : Type := ℝ) where
  /-- types of the parameters -/
  params : List (Ty E)
  /-- element types of the vectors passed by mutable reference -/
  vecs : List (Ty E)
  ret : Ty E
  body : Cmd E U K M
  result : Tm E U K M

/-- The variables and vectors in scope. -/
structure Store (K : Type := ℝ) (M : Type := ℝ) where
  vars : List (Val K M)
  vecs : List (List (Val K M))

section
variable {E U K M : Type} [FieldOps E] [DecidableEq E]

/-- Type checking of expressions: storage types `ss`, `n` base dimensions, `dimOf u` the dimension of unit `u`; `ok` says which calls are
allowed, `Γ` has the types of the variables. -/
inductive Checks (ss : List Storage) (n : Nat) (dimOf : U → DimVal E) (ok : Fn E → List (Ty E) → Prop)
    (Γ : List (Ty E)) : Sum (Tm E U K M × Ty E) (Tms E U K M × List (Ty E)) → Prop where
  | var {x t} : Γ[x]? = some t → Checks ss n dimOf ok Γ (.inl (.var x, t))
  | num {s} {r : Raw K} : r.length = s.numDims → Checks ss n dimOf ok Γ (.inl (.num s r, .bare s))
  | unit {u} : Checks ss n dimOf ok Γ (.inl (.unit u, .unit (dimOf u)))
  | op {o i l r lt rt out res} : o ∈ iterNumericTraits ss → i.n = n → Checks ss n dimOf ok Γ (.inl (l, lt.ty)) →
      Checks ss n dimOf ok Γ (.inl (r, rt.ty)) → o.Typed i lt rt out →
      (res = match out with
        | .value t => t
        | .updated => lt.ty
        | .bool => .bool
        | .ordering => .ordering) → Checks ss n dimOf ok Γ (.inl (.op o i l r, res))
  | call {f tys args t} : ok f tys → f.sig n tys = some t → Checks ss n dimOf ok Γ (.inr (args, tys)) →
      Checks ss n dimOf ok Γ (.inl (.call f tys args, t))
  | plain {t g args tys} : t.isPlain = true → (∀ u ∈ tys, Ty.isPlain u = true) → Checks ss n dimOf ok Γ (.inr (args, tys)) →
      (∀ vs v, ArgsHaveTy vs tys → g vs = some v → v.HasTy t) → Checks ss n dimOf ok Γ (.inl (.plain t g args, t))
  | ite {c a b t} : Checks ss n dimOf ok Γ (.inl (c, .bool)) → Checks ss n dimOf ok Γ (.inl (a, t)) → Checks ss n dimOf ok Γ (.inl (b, t)) →
      Checks ss n dimOf ok Γ (.inl (.ite c a b, t))
  | nil : Checks ss n dimOf ok Γ (.inr (.nil, []))
  | cons {a as t ts} : Checks ss n dimOf ok Γ (.inl (a, t)) → Checks ss n dimOf ok Γ (.inr (as, ts)) →
      Checks ss n dimOf ok Γ (.inr (.cons a as, t :: ts))

/-- Type checking of statements, where `F` are the functions of the program, `Γ` the types of the variables, `Δ` the element types of the
vectors in scope. -/
inductive CmdChecks (ss : List Storage) (n : Nat) (dimOf : U → DimVal E) (ok : Fn E → List (Ty E) → Prop)
    (F : List (Func E U K M)) : List (Ty E) → List (Ty E) → Cmd E U K M → Prop where
  | skip {Γ Δ} : CmdChecks ss n dimOf ok F Γ Δ .skip
  | assign {Γ Δ x e t} : Γ[x]? = some t → Checks ss n dimOf ok Γ (.inl (e, t)) → CmdChecks ss n dimOf ok F Γ Δ (.assign x e)
  | letIn {Γ Δ e t c} : Checks ss n dimOf ok Γ (.inl (e, t)) → CmdChecks ss n dimOf ok F (t :: Γ) Δ c →
      CmdChecks ss n dimOf ok F Γ Δ (.letIn e c)
  | seq {Γ Δ c d} : CmdChecks ss n dimOf ok F Γ Δ c → CmdChecks ss n dimOf ok F Γ Δ d → CmdChecks ss n dimOf ok F Γ Δ (.seq c d)
  | ite {Γ Δ b c d} : Checks ss n dimOf ok Γ (.inl (b, .bool)) → CmdChecks ss n dimOf ok F Γ Δ c → CmdChecks ss n dimOf ok F Γ Δ d →
      CmdChecks ss n dimOf ok F Γ Δ (.ite b c d)
  | loop {Γ Δ b c} : Checks ss n dimOf ok Γ (.inl (b, .bool)) → CmdChecks ss n dimOf ok F Γ Δ c → CmdChecks ss n dimOf ok F Γ Δ (.loop b c)
  | vecIn {Γ Δ t c} : CmdChecks ss n dimOf ok F Γ (t :: Δ) c → CmdChecks ss n dimOf ok F Γ Δ (.vecIn c)
  | push {Γ Δ a e t} : Δ[a]? = some t → Checks ss n dimOf ok Γ (.inl (e, t)) → CmdChecks ss n dimOf ok F Γ Δ (.push a e)
  | load {Γ Δ x a g args tys t} : Γ[x]? = some t → Δ[a]? = some t → (∀ u ∈ tys, Ty.isPlain u = true) →
      Checks ss n dimOf ok Γ (.inr (args, tys)) → CmdChecks ss n dimOf ok F Γ Δ (.load x a g args)
  | store {Γ Δ a g args tys e t} : Δ[a]? = some t → (∀ u ∈ tys, Ty.isPlain u = true) →
      Checks ss n dimOf ok Γ (.inr (args, tys)) → Checks ss n dimOf ok Γ (.inl (e, t)) → CmdChecks ss n dimOf ok F Γ Δ (.store a g args e)
  | len {Γ Δ x a t} : Γ[x]? = some (.bare .f64) → Δ[a]? = some t → CmdChecks ss n dimOf ok F Γ Δ (.len x a)
  /-- the vectors are borrowed mutably, so they are different ones -/
  | call {Γ Δ x f args vecs fn} : F[f]? = some fn → Γ[x]? = some fn.ret → Checks ss n dimOf ok Γ (.inr (args, fn.params)) → vecs.Nodup →
      List.Forall₂ (fun a t => Δ[a]? = some t) vecs fn.vecs → CmdChecks ss n dimOf ok F Γ Δ (.call x f args vecs)

/-- Type checking of the functions of a program, which may call each other and themselves. -/
def FuncsCheck [Exponent E] [LawfulExponent E] (ss : List Storage) (n : Nat) (dimOf : U → DimVal E) (ok : Fn E → List (Ty E) → Prop)
    (F : List (Func E U K M)) : Prop :=
  ∀ f ∈ F, (∀ t ∈ f.params, t.WF n) ∧ CmdChecks ss n dimOf ok F f.params f.vecs f.body ∧ Checks ss n dimOf ok f.params (.inl (f.result, f.ret))

variable [Prims K M] [NatCast K]

mutual
/-- Running an expression: `fac u` is the factor of unit `u`, `ρ` has the values of the variables; `none` is a panic. -/
def Tm.eval (n : Nat) (fac : U → M) (ρ : List (Val K M)) : Tm E U K M → Option (Val K M)
  | .var x => ρ[x]?
  | .num _ r => some (.bare r)
  | .unit u => some (.unit (fac u))
  | .op o i l r => do
    let a ← l.eval n fac ρ
    let b ← r.eval n fac ρ
    o.run (i.st o.storageTypes.1) (i.st o.storageTypes.2) a b
  | .call f tys args => do
    let vs ← args.eval n fac ρ
    f.run n tys vs
  | .plain _ g args => do
    let vs ← args.eval n fac ρ
    g vs
  | .ite c a b => do
    match ← c.eval n fac ρ with
    | .bool true => a.eval n fac ρ
    | .bool false => b.eval n fac ρ
    | _ => none
/-- Running an argument list, left to right. -/
def Tms.eval (n : Nat) (fac : U → M) (ρ : List (Val K M)) : Tms E U K M → Option (List (Val K M))
  | .nil => some []
  | .cons a as => do
    let v ← a.eval n fac ρ
    let vs ← as.eval n fac ρ
    return v :: vs
end

/-- Running a statement with `fuel` bounding the depth of loop iterations and function calls; `none` is a panic or running out of fuel. A
function works on its arguments and on the vectors passed to it, which are the caller's again when it returns. -/
def Cmd.exec (n : Nat) (fac : U → M) (F : List (Func E U K M)) : Nat → Cmd E U K M → Store K M → Option (Store K M)
  | _, .skip, σ => some σ
  | _, .assign x t, σ => do
    let v ← t.eval n fac σ.vars
    return { σ with vars := σ.vars.set x v }
  | fuel, .letIn t c, σ => do
    let v ← t.eval n fac σ.vars
    let σ' ← c.exec n fac F fuel { σ with vars := v :: σ.vars }
    return { σ' with vars := σ'.vars.tail }
  | fuel, .seq c d, σ => do
    let σ' ← c.exec n fac F fuel σ
    d.exec n fac F fuel σ'
  | fuel, .ite b c d, σ => do
    match ← b.eval n fac σ.vars with
    | .bool true => c.exec n fac F fuel σ
    | .bool false => d.exec n fac F fuel σ
    | _ => none
  | 0, .loop _ _, _ => none
  | fuel + 1, .loop b c, σ => do
    match ← b.eval n fac σ.vars with
    | .bool true => do
      let σ' ← c.exec n fac F fuel σ
      (Cmd.loop b c).exec n fac F fuel σ'
    | .bool false => some σ
    | _ => none
  | fuel, .vecIn c, σ => do
    let σ' ← c.exec n fac F fuel { σ with vecs := [] :: σ.vecs }
    return { σ' with vecs := σ'.vecs.tail }
  | _, .push a t, σ => do
    let v ← t.eval n fac σ.vars
    let l ← σ.vecs[a]?
    return { σ with vecs := σ.vecs.set a (l ++ [v]) }
  | _, .load x a g args, σ => do
    let i ← g (← args.eval n fac σ.vars)
    let l ← σ.vecs[a]?
    let v ← l[i]?
    return { σ with vars := σ.vars.set x v }
  | _, .store a g args t, σ => do
    let i ← g (← args.eval n fac σ.vars)
    let v ← t.eval n fac σ.vars
    let l ← σ.vecs[a]?
    if i < l.length then return { σ with vecs := σ.vecs.set a (l.set i v) } else none
  | _, .len x a, σ => do
    let l ← σ.vecs[a]?
    return { σ with vars := σ.vars.set x (.bare [(l.length : K)]) }
  | 0, .call .., _ => none
  | fuel + 1, .call x f args vecs, σ => do
    let fn ← F[f]?
    let vals ← args.eval n fac σ.vars
    let passed ← vecs.mapM (σ.vecs[·]?)
    let σ' ← fn.body.exec n fac F fuel ⟨vals, passed⟩
    let v ← fn.result.eval n fac σ'.vars
    return ⟨σ.vars.set x v, (vecs.zip σ'.vecs).foldl (fun vs p => vs.set p.1 p.2) σ.vecs⟩
termination_by fuel c => (fuel, sizeOf c)

/-- The store after the change of base units. -/
noncomputable def Store.rescale [Exponent E] [LawfulExponent E] (s : List ℝ) (Γ Δ : List (Ty E)) (σ : Store) : Store :=
  ⟨rescaleAll s Γ σ.vars, List.zipWith (fun t l => l.map (Val.rescale s t)) Δ σ.vecs⟩

/-- The variables have the types `Γ`, the elements of the vectors the types `Δ`. -/
def Store.HasTys (σ : Store K M) (Γ Δ : List (Ty E)) : Prop :=
  ArgsHaveTy σ.vars Γ ∧ List.Forall₂ (fun (l : List (Val K M)) t => ∀ v ∈ l, v.HasTy t) σ.vecs Δ
end
end Diman
