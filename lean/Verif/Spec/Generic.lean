import Verif.Spec.Program
/-!
# Functions that are generic in dimensions (C69)
A user function can have dimensions as const parameters, as the generated impls themselves do:
`fn f<const D: Dimension>(q: Quantity<f64, D>) -> Quantity<f64, { D.add(D) }> { q * q }`. While such a function is type-checked, a dimension is
an expression in the parameters, built with the functions of dimension_type.rs:219-265. With feature `generic_const_exprs`, which diman requires
(README), rustc takes two such expressions for equal if they are the same expression; an expression without parameters is evaluated. `Sym` models
this: type checking a generic function is the type checking of `Spec/Program.lean` with `Sym` for the exponents. Simplification: only dimensions
are parameters, not storage types; the functions of a program that call each other have the same parameters.
-/
namespace Diman

/-- An exponent while a generic function is type-checked: an exponent `e` of a dimension without parameters, the exponent of parameter number `j`, or an
operation of dimension_type.rs:27-61, 82-132 that is not evaluated yet. -/
inductive Sym (E : Type) where
  | lit (e : E)
  | var (j : Nat)
  | add (a b : Sym E)
  | sub (a b : Sym E)
  | neg (a : Sym E)
  | mul (a : Sym E) (n : Int)
  | div2 (a : Sym E)
  | div3 (a : Sym E)
deriving DecidableEq

section
variable {E : Type} [FieldOps E]

/-- Expressions without parameters are evaluated, all others are kept. -/
instance : FieldOps (Sym E) where
  entry
    | .lit a => (FieldOps.entry a).map .lit
    | a => some a
  zero := .lit FieldOps.zero
  add
    | .lit a, .lit b => (FieldOps.add a b).map .lit
    | a, b => some (.add a b)
  sub
    | .lit a, .lit b => (FieldOps.sub a b).map .lit
    | a, b => some (.sub a b)
  neg
    | .lit a => (FieldOps.neg a).map .lit
    | a => some (.neg a)
  mul
    | .lit a, n => (FieldOps.mul a n).map .lit
    | a, n => some (.mul a n)
  div2
    | .lit a => (FieldOps.div2 a).map .lit
    | a => some (.div2 a)
  div3
    | .lit a => (FieldOps.div3 a).map .lit
    | a => some (.div3 a)
end

/-- The parameter number `j`, in a unit system with `n` base dimensions. -/
def DimVal.param {E : Type} (n j : Nat) : DimVal (Sym E) := List.replicate n (.var j)

/-- A dimension without parameters. -/
def DimVal.closed {E : Type} (d : DimVal E) : DimVal (Sym E) := d.map .lit

/-! ### Exact exponents -/

/-- Exponents that denote rational numbers and whose arithmetic is exact where it does not panic. -/
class ExactFields (E : Type) [FieldOps E] where
  value : E → ℚ
  zero : value FieldOps.zero = 0
  add : ∀ {a b c : E}, FieldOps.add a b = some c → value c = value a + value b
  sub : ∀ {a b c : E}, FieldOps.sub a b = some c → value c = value a - value b
  neg : ∀ {a c : E}, FieldOps.neg a = some c → value c = -value a
  mul : ∀ {a c : E} {n : Int}, FieldOps.mul a n = some c → value c = value a * n
  div2 : ∀ {a c : E}, FieldOps.div2 a = some c → value c = value a / 2
  div3 : ∀ {a c : E}, FieldOps.div3 a = some c → value c = value a / 3

/-- Ideal exponents: rational numbers, no overflow. -/
instance : FieldOps ℚ where
  entry a := some a
  zero := 0
  add a b := some (a + b)
  sub a b := some (a - b)
  neg a := some (-a)
  mul a n := some (a * n)
  div2 a := some (a / 2)
  div3 a := some (a / 3)

/-- The same, for the macro. -/
instance : Exponent ℚ where
  decEq := inferInstance
  one := 1
  zero := 0
  ofInt i := i
  add a b := some (a + b)
  mul a b := some (a * b)
  neg a := some (-a)

/-- They are their own meaning. -/
instance : LawfulExponent ℚ where
  val q := q
  Good _ := True
  Canon _ := True
  canon_good _ := trivial
  canon_ext _ _ h := h
  one_canon := trivial
  zero_canon := trivial
  one_val := rfl
  zero_val := rfl
  ofInt_canon _ := trivial
  ofInt_val _ := rfl
  add_good _ _ h := ⟨trivial, (Option.some.inj h).symm⟩
  mul_good _ _ h := ⟨trivial, (Option.some.inj h).symm⟩
  neg_good _ h := ⟨trivial, (Option.some.inj h).symm⟩
  add_canon _ _ _ := trivial
  mul_canon _ _ _ := trivial
  neg_canon _ _ := trivial

section
variable {E : Type} [FieldOps E] [ExactFields E]

/-- The exponent when the parameters have the exponents `p`. -/
def Sym.at (p : Nat → ℚ) : Sym E → ℚ
  | .lit e => ExactFields.value e
  | .var j => p j
  | .add a b => a.at p + b.at p
  | .sub a b => a.at p - b.at p
  | .neg a => -a.at p
  | .mul a n => a.at p * n
  | .div2 a => a.at p / 2
  | .div3 a => a.at p / 3

/-- The exponent to which parameter `j` occurs. -/
def Sym.degree (j : Nat) : Sym E → ℚ
  | .lit _ => 0
  | .var i => if i = j then 1 else 0
  | .add a b => a.degree j + b.degree j
  | .sub a b => a.degree j - b.degree j
  | .neg a => -a.degree j
  | .mul a n => a.degree j * n
  | .div2 a => a.degree j / 2
  | .div3 a => a.degree j / 3

/-- The exponent to which parameter `j` occurs in a dimension: the same for all base dimensions, since whole dimensions are multiplied. -/
def DimVal.degree (j : Nat) : DimVal (Sym E) → ℚ
  | [] => 0
  | e :: _ => e.degree j

/-- The dimension when the parameters are the dimensions `p`. -/
def DimVal.atDims (p : Nat → DimVal ℚ) : DimVal (Sym E) → DimVal ℚ
  | [] => []
  | e :: d => e.at (fun j => (p j).headD 0) :: DimVal.atDims (fun j => (p j).tail) d

/-- By how much the numbers of dimension `d` change if the unit of base dimension `k` becomes `s k` times smaller and every number of dimension `D_j`
is multiplied by `c j`. -/
noncomputable def DimVal.genericScale (s c : List ℝ) (d : DimVal (Sym E)) : ℝ :=
  (List.zipWith (fun (x : ℝ) (e : Sym E) => x ^ ((e.at fun _ => 0 : ℚ) : ℝ)) s d).prod *
    (c.mapIdx fun j x => x ^ ((DimVal.degree j d : ℚ) : ℝ)).prod

/-- The same for a type: plain values do not change. -/
noncomputable def Ty.genericScale (s c : List ℝ) : Ty (Sym E) → ℝ
  | .quantity _ d | .unit d | .runtimeUnit d => d.genericScale s c
  | .bare _ | .bool | .ordering => 1

/-- Values of the types `ts`, scaled. -/
noncomputable def scaleAll (s c : List ℝ) (ts : List (Ty (Sym E))) (vs : List (Val ℝ ℝ)) : List (Val ℝ ℝ) :=
  List.zipWith (fun t v => v.smul (t.genericScale s c)) ts vs

/-- Variables and vectors, scaled. -/
noncomputable def Store.scale (s c : List ℝ) (Γ Δ : List (Ty (Sym E))) (σ : Store) : Store :=
  ⟨scaleAll s c Γ σ.vars, List.zipWith (fun t l => l.map (Val.smul (t.genericScale s c))) Δ σ.vecs⟩
end

/-! ### Type checking of generic programs -/

section
variable {E U : Type} [FieldOps E] [DecidableEq E]

/-- A type of the unit system: one exponent per base dimension. -/
def Ty.HasFields (n : Nat) (t : Ty E) : Prop := ∀ d, t.dim n = some d → d.length = n

/-- The dimensions a call fixes by type annotation have one exponent per base dimension. -/
def Fn.AnnotFields (n : Nat) : Fn E → Prop
  | .newUnchecked d | .default _ d | .sum _ d | .zero _ d => d.length = n
  | _ => True

/-- Calls that do not bypass the unit system and are not the wrong quotients (C23), as in `FaithfulCall`. -/
def GenericCall (n : Nat) (f : Fn E) (tys : List (Ty E)) : Prop :=
  CheckedCall n f tys ∧ ¬ (f = .unitDiv ∧ WrongQuotient tys) ∧ f.AnnotFields n

/-- Type checking of generic functions, which may call each other and themselves. The units of the unit system have dimensions without parameters. -/
def GenericFuncs (ss : List Storage) (n : Nat) (dimOf : U → DimVal E) (F : List (Func (Sym E) U)) : Prop :=
  ∀ f ∈ F, (∀ t ∈ f.params ++ f.vecs, t.HasFields n) ∧ f.ret.HasFields n ∧
    CmdChecks ss n (fun u => (dimOf u).closed) (GenericCall n) F f.params f.vecs f.body ∧
    Checks ss n (fun u => (dimOf u).closed) (GenericCall n) f.params (.inl (f.result, f.ret))

/-- Running a function without vectors on arguments. -/
noncomputable def Func.apply [IdealFns] (n : Nat) (fac : U → ℝ) (F : List (Func E U)) (fuel : Nat) (f : Func E U) (args : List (Val ℝ ℝ)) :
    Option (Val ℝ ℝ) := do
  let σ ← f.body.exec n fac F fuel ⟨args, []⟩
  f.result.eval n fac σ.vars
end

/-! ### Instances -/

section
variable {E E' U : Type}

/-- Put dimensions for the parameters of a type. -/
def Ty.onDims (Φ : DimVal E → DimVal E') : Ty E → Ty E'
  | .quantity s d => .quantity s (Φ d)
  | .bare s => .bare s
  | .unit d => .unit (Φ d)
  | .runtimeUnit d => .runtimeUnit (Φ d)
  | .bool => .bool
  | .ordering => .ordering

/-- The same for a generated function. -/
def Fn.onDims (Φ : DimVal E → DimVal E') : Fn E → Fn E'
  | .newUnchecked d => .newUnchecked (Φ d)
  | .default s d => .default s (Φ d)
  | .sum s d => .sum s (Φ d)
  | .zero s d => .zero s (Φ d)
  | .value => .value | .valueRef => .valueRef | .deref => .deref | .valueUnchecked => .valueUnchecked
  | .valueUncheckedRef => .valueUncheckedRef | .valueIn => .valueIn | .from => .from | .neg => .neg | .abs => .abs
  | .dimensionless f => .dimensionless f | .squared => .squared | .cubed => .cubed | .powi i => .powi i | .sqrt => .sqrt | .cbrt => .cbrt
  | .min => .min | .max => .max | .clamp => .clamp | .isPositive => .isPositive | .isPositiveOrZero => .isPositiveOrZero
  | .isNegative => .isNegative | .isNegativeOrZero => .isNegativeOrZero | .isNan => .isNan | .vnew s => .vnew s
  | .newAxis a s => .newAxis a s | .axis a => .axis a | .setAxis a => .setAxis a | .length => .length | .distance => .distance
  | .distanceSquared => .distanceSquared | .normalize => .normalize | .dot => .dot | .unitNew => .unitNew | .unitMul => .unitMul
  | .unitDiv => .unitDiv

/-- The same for the parameters of a generated operator, in a unit system with `n` base dimensions. -/
def Inst.onDims (Φ : DimVal E → DimVal E') (n : Nat) (i : Inst E) : Inst E' := ⟨n, Φ i.D, Φ i.DL, Φ i.DR, i.LHS, i.RHS, i.S⟩

mutual
/-- The same for an expression. -/
def Tm.onDims (Φ : DimVal E → DimVal E') (n : Nat) : Tm E U → Tm E' U
  | .var x => .var x
  | .num s r => .num s r
  | .unit u => .unit u
  | .op o i l r => .op o (i.onDims Φ n) (l.onDims Φ n) (r.onDims Φ n)
  | .call f tys args => .call (f.onDims Φ) (tys.map (Ty.onDims Φ)) (args.onDims Φ n)
  | .plain t g args => .plain (t.onDims Φ) g (args.onDims Φ n)
  | .ite c a b => .ite (c.onDims Φ n) (a.onDims Φ n) (b.onDims Φ n)
/-- The same for arguments. -/
def Tms.onDims (Φ : DimVal E → DimVal E') (n : Nat) : Tms E U → Tms E' U
  | .nil => .nil
  | .cons a as => .cons (a.onDims Φ n) (as.onDims Φ n)
end

/-- The same for statements. -/
def Cmd.onDims (Φ : DimVal E → DimVal E') (n : Nat) : Cmd E U → Cmd E' U
  | .skip => .skip
  | .assign x t => .assign x (t.onDims Φ n)
  | .letIn t c => .letIn (t.onDims Φ n) (c.onDims Φ n)
  | .seq c d => .seq (c.onDims Φ n) (d.onDims Φ n)
  | .ite b c d => .ite (b.onDims Φ n) (c.onDims Φ n) (d.onDims Φ n)
  | .loop b c => .loop (b.onDims Φ n) (c.onDims Φ n)
  | .vecIn c => .vecIn (c.onDims Φ n)
  | .push a t => .push a (t.onDims Φ n)
  | .load x a g args => .load x a g (args.onDims Φ n)
  | .store a g args t => .store a g (args.onDims Φ n) (t.onDims Φ n)
  | .len x a => .len x a
  | .call x f args vecs => .call x f (args.onDims Φ n) vecs

/-- The same for a function: an instance of a generic function is `f.onDims (DimVal.atDims p) n`. -/
def Func.onDims (Φ : DimVal E → DimVal E') (n : Nat) (f : Func E U) : Func E' U :=
  ⟨f.params.map (Ty.onDims Φ), f.vecs.map (Ty.onDims Φ), f.ret.onDims Φ, f.body.onDims Φ n, f.result.onDims Φ n⟩
end

end Diman
