import Verif.Model.Prims
/-!
# The operator implementations as written out
Models the parts of codegen/num_traits/operator_trait.rs that write the `impl` items: trait and method names, generic parameters, types, where clauses,
signature. Simplification: token streams are kept as syntax trees; the spans are left out. The body is `OperatorTrait.fnReturnExpr` (`Model/Prims`).
-/
namespace Diman

/-- A generic parameter of an `impl`: `'a`, `const D: Dimension`, or a storage type. -/
inductive GenericParam where
  | lifetime
  | dim (n : DimName)
  | storage (n : StName)
deriving DecidableEq, Repr

/-- The dimension argument in an operand type (operator_trait.rs:355-361). -/
inductive DimArg where
  | name (n : DimName)
  | noneCall
deriving DecidableEq, Repr

/-- An operand type, behind its reference sign. -/
inductive TypeSyn where
  | quantity (ref : RefKind) (st : StName) (dim : DimArg)
  | bare (ref : RefKind) (st : StName)
deriving DecidableEq, Repr

/-- The storage type of the result (operator_trait.rs:413-424): a concrete type, or `<L as Trait<R>>::Output`. -/
inductive OutStorage where
  | concrete (ty : Storage)
  | output (l : StName) (t : Trait) (r : StName)
deriving DecidableEq, Repr

/-- A where clause. -/
inductive WhereBound where
  /-- `L: Trait<R>` -/
  | implements (l : StName) (t : Trait) (r : StName)
  /-- `S: Copy` -/
  | copy (s : StName)
  /-- `Quantity<(), { expression }>:` -/
  | evaluates (d : DimExpr)
deriving DecidableEq, Repr

/-- How a method takes `self` (operator_trait.rs:64-72). -/
inductive SelfArg where
  | byValue | byMutRef | byRef
deriving DecidableEq, Repr

/-- The return type of a method (operator_trait.rs:53-62). -/
inductive RetTy where
  | selfOutput | unit | bool | optionOrdering
deriving DecidableEq, Repr

/-- operator_trait.rs:23-36 `name` -/
def Trait.path : Trait → Str
  | .add => str!"core::ops::Add"
  | .sub => str!"core::ops::Sub"
  | .mul => str!"core::ops::Mul"
  | .div => str!"core::ops::Div"
  | .addAssign => str!"core::ops::AddAssign"
  | .subAssign => str!"core::ops::SubAssign"
  | .mulAssign => str!"core::ops::MulAssign"
  | .divAssign => str!"core::ops::DivAssign"
  | .partialEq => str!"core::cmp::PartialEq"
  | .partialOrd => str!"core::cmp::PartialOrd"

/-- operator_trait.rs:38-51 `fn_name` -/
def Trait.fnName : Trait → Str
  | .add => str!"add"
  | .sub => str!"sub"
  | .mul => str!"mul"
  | .div => str!"div"
  | .addAssign => str!"add_assign"
  | .subAssign => str!"sub_assign"
  | .mulAssign => str!"mul_assign"
  | .divAssign => str!"div_assign"
  | .partialEq => str!"eq"
  | .partialOrd => str!"partial_cmp"

/-- operator_trait.rs:53-62 `fn_return_type` -/
def Trait.fnReturnType : Trait → RetTy
  | .add | .sub | .mul | .div => .selfOutput
  | .addAssign | .subAssign | .mulAssign | .divAssign => .unit
  | .partialEq => .bool
  | .partialOrd => .optionOrdering

/-- operator_trait.rs:64-72 `lhs_arg` -/
def Trait.lhsArg : Trait → SelfArg
  | .add | .sub | .mul | .div => .byValue
  | .addAssign | .subAssign | .mulAssign | .divAssign => .byMutRef
  | .partialEq | .partialOrd => .byRef

/-- operator_trait.rs:74-82 `rhs_arg_type`: whether the argument is `&R` instead of `R` -/
def Trait.rhsArgRef : Trait → Bool
  | .add | .sub | .mul | .div | .addAssign | .subAssign | .mulAssign | .divAssign => false
  | .partialEq | .partialOrd => true

namespace OperatorTrait
variable (o : OperatorTrait)

/-- operator_trait.rs:285-316 `generics` -/
def generics : List GenericParam :=
  (if o.lhs.ref.isRef || o.rhs.ref.isRef then [.lifetime] else []) ++
  (match o.dimensionTypes.1 with
    | some n => [.dim n]
    | none => []) ++
  (if o.differentDimensionsAllowed || o.dimensionTypes.1.isNone then
    match o.dimensionTypes.2 with
    | some n => [.dim n]
    | none => []
   else []) ++
  (match o.lhs.storage with
    | .generic => [.storage o.storageTypes.1]
    | .concrete _ => []) ++
  (match o.rhs.storage, o.lhs.storage with
    | .generic, .generic => if o.differentStorageTypesAllowed then [.storage o.storageTypes.2] else []
    | .generic, .concrete _ => [.storage o.storageTypes.2]
    | .concrete _, _ => [])

/-- operator_trait.rs:345-365 `type_for_operand`. A quantity operand without a dimension name would be written `Quantity < S, >`, which `none` stands for. -/
def typeSyn (op : Operand) (st : StName) (dim : Option DimName) : Option TypeSyn :=
  match op.kind with
  | .quantity => dim.map fun d => .quantity op.ref st (.name d)
  | .dimensionless => some (.quantity op.ref st .noneCall)
  | .storage => some (.bare op.ref st)

/-- operator_trait.rs:332-336 `lhs_type` -/
def lhsSyn : Option TypeSyn := typeSyn o.lhs o.storageTypes.1 o.dimensionTypes.1
/-- operator_trait.rs:339-343 `rhs_type` -/
def rhsSyn : Option TypeSyn := typeSyn o.rhs o.storageTypes.2 o.dimensionTypes.2

/-- operator_trait.rs:413-424 `output_quantity_storage`; `none` is the failing `assert_eq!`. -/
def outputStorage : Option OutStorage :=
  match o.lhs.storage, o.rhs.storage with
  | .concrete l, .concrete r => if l = r then some (.concrete l) else none
  | _, _ => some (.output o.storageTypes.1 o.name o.storageTypes.2)

/-- Whether the output dimension is a new expression, operator_trait.rs:426-449 (`OutputQuantityDimension::New`). -/
def _root_.Diman.DimExpr.isNew : DimExpr → Bool
  | .var _ => false
  | _ => true

/-- operator_trait.rs:374-411 `trait_bounds` and 164-201 `generic_const_bound` -/
def bounds (out : Option (OutStorage × DimExpr)) : List WhereBound :=
  (match o.lhs.storage, o.rhs.storage with
    | .concrete _, .concrete _ => []
    | _, _ => [.implements o.storageTypes.1 o.name o.storageTypes.2] ++
      (if o.lhs.ref.isRef then [.copy o.storageTypes.1] else []) ++ (if o.rhs.ref.isRef then [.copy o.storageTypes.2] else [])) ++
  (match out with
    | some (_, d) => if d.isNew then [.evaluates d] else []
    | none => [])

/-- operator_trait.rs:454-463 `output_type`; the outer `none` is a panic, the inner one no output type. -/
def outputType : Option (Option (OutStorage × DimExpr)) :=
  if o.name.hasOutput then o.outputStorage.bind fun s => o.outputDimension.map fun d => some (s, d) else some none

end OperatorTrait

/-- An `impl` of an operator trait. -/
structure ImplSyn where
  generics : List GenericParam
  traitPath : Str
  /-- the parameter of the trait -/
  rhs : TypeSyn
  /-- the type it is implemented for -/
  self : TypeSyn
  bounds : List WhereBound
  /-- `type Output = Quantity<storage, dimension>` -/
  output : Option (OutStorage × DimExpr)
  fnName : Str
  selfArg : SelfArg
  rhsArgRef : Bool
  ret : RetTy
  body : BodyExpr
deriving DecidableEq, Repr

/-- operator_trait.rs:634-664 `gen_operator_trait_impl`; `none` if the macro panics (an `unreachable!()` or a failing assertion) or writes an incomplete
type. -/
def OperatorTrait.genImpl (o : OperatorTrait) : Option ImplSyn := do
  let rhs ← o.rhsSyn
  let self ← o.lhsSyn
  let out ← o.outputType
  return { generics := o.generics, traitPath := o.name.path, rhs, self, bounds := o.bounds out, output := out, fnName := o.name.fnName,
           selfArg := o.name.lhsArg, rhsArgRef := o.name.rhsArgRef, ret := o.name.fnReturnType, body := o.fnReturnExpr }

end Diman
