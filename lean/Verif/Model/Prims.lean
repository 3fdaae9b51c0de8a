import Verif.Model.Operators
/-!
# Stored values and the primitive operations generated code calls
The generated code is a thin layer over operations of `f32`/`f64` (core, std or num-traits), of glam vectors, and of `Magnitude`.
These are the parameters `Prims` of the model: `K` is the type of floating-point numbers (soft floats, or exact numbers) and `M` the
type of conversion factors. glam vectors are lists of components with glam's componentwise definitions.
-/
namespace Diman

/-- float_methods.rs:54-78 `all_dimensionless_float_methods`: the argumentless methods of dimensionless floats. -/
inductive FloatFn where
  | log2 | ln | log10 | exp | exp2 | ceil | floor | sin | cos | tan | asin | acos | atan | sinh | cosh | tanh
  | asinh | acosh | atanh | expM1 | ln1p
deriving DecidableEq, Repr

/-- The primitive operations, per float type. `clamp` is `none` when it panics. -/
class Prims (K M : Type) where
  zero : FloatTy → K
  one : FloatTy → K
  add : FloatTy → K → K → K
  sub : FloatTy → K → K → K
  mul : FloatTy → K → K → K
  div : FloatTy → K → K → K
  neg : FloatTy → K → K
  abs : FloatTy → K → K
  min : FloatTy → K → K → K
  max : FloatTy → K → K → K
  clamp : FloatTy → K → K → K → Option K
  powi : FloatTy → K → Int → K
  sqrt : FloatTy → K → K
  cbrt : FloatTy → K → K
  fn : FloatFn → FloatTy → K → K
  eq : FloatTy → K → K → Bool
  lt : FloatTy → K → K → Bool
  isNan : FloatTy → K → Bool
  /-- `Magnitude::into_f32` / `into_f64` -/
  into : FloatTy → M → K
  /-- `Magnitude * Magnitude` -/
  magMul : M → M → M
  /-- `Magnitude / Magnitude` -/
  magDiv : M → M → M

/-- A stored value of a storage type: its components, one for a float. -/
abbrev Raw (K : Type) := List K

/-- What a primitive operator returns. -/
inductive RawOut (K : Type) where
  | raw (r : Raw K)
  | bool (b : Bool)
  | ordering (o : Option Ordering)
deriving DecidableEq

section
variable {K M : Type} [P : Prims K M]

/-- Arithmetic of core floats: `a + b`, `a += b` and so on for one component. -/
def arith (M : Type) [Prims K M] : Trait → FloatTy → K → K → K
  | .add, t | .addAssign, t => Prims.add M t
  | .sub, t | .subAssign, t => Prims.sub M t
  | .mul, t | .mulAssign, t => Prims.mul M t
  | .div, t | .divAssign, t => Prims.div M t
  | _, _ => fun a _ => a

/-- glam's operators: componentwise between vectors, a float is applied to every component. -/
def Raw.zip (f : K → K → K) (sl sr : Storage) (a b : Raw K) : Option (Raw K) :=
  if sl.isFloat then match a with
    | [x] => some (b.map (f x))
    | _ => none
  else if sr.isFloat then match b with
    | [y] => some (a.map (f · y))
    | _ => none
  else some (List.zipWith f a b)

/-- core's `partial_cmp` on floats. -/
def partialCmp (M : Type) [Prims K M] (t : FloatTy) (x y : K) : Option Ordering :=
  if Prims.eq M t x y then some .eq else if Prims.lt M t x y then some .lt else if Prims.lt M t y x then some .gt else none

/-- The operator `t` of the storage types themselves (core for floats, glam for vectors; see `storageOut` for which exist). -/
def rawOp (M : Type) [Prims K M] (t : Trait) (sl sr : Storage) (a b : Raw K) : Option (RawOut K) :=
  if (storageOut t sl sr).isNone then none else
  match t with
  | .partialEq => some (.bool (decide (a.length = b.length) && (List.zipWith (Prims.eq M sl.base) a b).all id))
  | .partialOrd => match a, b with
    | [x], [y] => some (.ordering (partialCmp M sl.base x y))
    | _, _ => none
  | t => (Raw.zip (arith M t sl.base) sl sr a b).map .raw

/-- Values of generated code. Dimensions are compile-time only (`#[repr(transparent)]`, quantity_type.rs:14-16), so a quantity is just
its stored value. `Unit` has its factor as a const parameter, `RuntimeUnit` as a field. -/
inductive Val (K M : Type) where
  | quantity (raw : Raw K)
  | bare (raw : Raw K)
  | unit (m : M)
  | runtimeUnit (m : M)
  | bool (b : Bool)
  | ordering (o : Option Ordering)
deriving DecidableEq

/-- The value a primitive result becomes in user code when it is not wrapped in a quantity. -/
def RawOut.val (M : Type) : RawOut K → Val K M
  | .raw r => .bare r
  | .bool b => .bool b
  | .ordering o => .ordering o

/-! ## Bodies of operator implementations -/

/-- What stands in front of the right operand in the body (operator_trait.rs:488-494). -/
inductive RhsPrefix where
  | amp | star | nothing
deriving DecidableEq, Repr

/-- operator_trait.rs:474-506 `fn_return_expr`: `Quantity( lhs.op(prefix rhs) )`, with `lhs` one of `self.0`, `self`, `(*self)`. -/
structure BodyExpr where
  lhsField : Bool
  lhsDeref : Bool
  pre : RhsPrefix
  rhsField : Bool
  wrap : Bool
deriving DecidableEq, Repr

/-- operator_trait.rs:106-114 `is_ref` -/
def RefKind.isRef : RefKind → Bool
  | .value => false
  | .ref => true
  | .mutRef => true

/-- operator_trait.rs:131-136 `is_storage` -/
def Operand.isStorage (o : Operand) : Bool :=
  match o.kind with
  | .quantity | .dimensionless => false
  | .storage => true

/-- operator_trait.rs:466-468 `rhs_takes_ref` -/
def OperatorTrait.rhsTakesRef (o : OperatorTrait) : Bool :=
  match o.name with
  | .partialOrd | .partialEq => true
  | _ => false

/-- operator_trait.rs:474-506 `fn_return_expr` -/
def OperatorTrait.fnReturnExpr (o : OperatorTrait) : BodyExpr where
  lhsField := match o.lhs.kind with
    | .quantity | .dimensionless => true
    | .storage => false
  rhsField := match o.rhs.kind with
    | .quantity | .dimensionless => true
    | .storage => false
  pre := if o.rhsTakesRef then .amp else if o.rhs.ref.isRef && o.rhs.isStorage then .star else .nothing
  lhsDeref := o.lhs.ref.isRef && o.lhs.isStorage
  wrap := o.name.hasOutput

/-- A value behind a number of reference layers. -/
structure Arg (α : Type) where
  layers : Nat
  val : α

/-- operator_trait.rs:64-72 `lhs_arg`: comparison and compound assignment take `self` by reference. -/
def Trait.lhsLayers : Trait → Nat
  | .add | .sub | .mul | .div => 0
  | _ => 1

/-- operator_trait.rs:74-82 `rhs_arg_type`: comparison takes its argument by reference. -/
def Trait.rhsLayers : Trait → Nat
  | .partialEq | .partialOrd => 1
  | _ => 0

/-- `e.0` (Rust looks through references) or `e`; `none` is a type error: only a quantity has a field `0`, and only a bare storage
value has the operators of the storage type. -/
def accessArg (field : Bool) (a : Arg (Val K M)) : Option (Arg (Raw K)) :=
  match field, a.val with
  | true, .quantity r => some ⟨0, r⟩
  | false, .bare r => some ⟨a.layers, r⟩
  | _, _ => none

/-- `*e`; `none` is a type error. -/
def derefArg {α : Type} (a : Arg α) : Option (Arg α) :=
  match a.layers with
  | 0 => none
  | n + 1 => some ⟨n, a.val⟩

/-- The prefix of the right operand. -/
def RhsPrefix.apply {α : Type} (p : RhsPrefix) (a : Arg α) : Option (Arg α) :=
  match p with
  | .amp => some ⟨a.layers + 1, a.val⟩
  | .star => derefArg a
  | .nothing => some a

/-- A method call `recv.op(arg)` type-checks: arithmetic takes both by value; compound assignment and comparison take `self` by
reference (Rust borrows a place automatically, so 0 or 1 layers); comparison takes its argument by reference (deref coercion removes
extra layers). -/
def callOk : Trait → Nat → Nat → Bool
  | .add, l, r | .sub, l, r | .mul, l, r | .div, l, r => l == 0 && r == 0
  | .addAssign, l, r | .subAssign, l, r | .mulAssign, l, r | .divAssign, l, r => decide (l ≤ 1) && r == 0
  | .partialEq, l, r | .partialOrd, l, r => decide (l ≤ 1) && decide (1 ≤ r)

/-- The receiver and argument of the call in the body of `o` (operator_trait.rs:474-500), for operands `a`, `b` (how they are passed
is part of `o`); `none` if the body does not type-check. -/
def OperatorTrait.prepare (o : OperatorTrait) (a b : Val K M) : Option (Raw K × Raw K) := do
  let self : Arg (Val K M) := ⟨(if o.lhs.ref.isRef then 1 else 0) + o.name.lhsLayers, a⟩
  let rhs : Arg (Val K M) := ⟨(if o.rhs.ref.isRef then 1 else 0) + o.name.rhsLayers, b⟩
  let l ← accessArg o.fnReturnExpr.lhsField self
  let l ← if o.fnReturnExpr.lhsDeref then derefArg l else some l
  let r ← accessArg o.fnReturnExpr.rhsField rhs
  let r ← o.fnReturnExpr.pre.apply r
  if callOk o.name l.layers r.layers then some (l.val, r.val) else none

/-- What happens with the result of the call: a compound assignment has updated its receiver; otherwise the result is wrapped or not
(operator_trait.rs:501-505). -/
def OperatorTrait.finish (o : OperatorTrait) : RawOut K → Val K M
  | .raw x => match o.name with
    | .addAssign | .subAssign | .mulAssign | .divAssign => if o.fnReturnExpr.lhsField then .quantity x else .bare x
    | _ => if o.fnReturnExpr.wrap then .quantity x else .bare x
  | .bool x => .bool x
  | .ordering x => .ordering x

/-- operator_trait.rs:634-664 `gen_operator_trait_impl`: running the generated function of `o` at storage types `sl`, `sr` on operands
`a`, `b`. A compound assignment returns the new left operand. `none` is a type error. -/
def OperatorTrait.run (o : OperatorTrait) (sl sr : Storage) (a b : Val K M) : Option (Val K M) := do
  let (l, r) ← o.prepare a b
  let out ← rawOp M o.name sl sr l r
  return o.finish out

end
end Diman
