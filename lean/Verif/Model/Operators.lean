import Verif.Model.Storage
/-!
# The generated operator implementations
Models crates/diman_unit_system/src/codegen/num_traits/operator_trait.rs: the table of operator implementations and, for each, the
types it applies to, its output type and what it computes. Const-generic dimensions and generic storage types are instantiated by an
`Inst`; a dimension expression that does not evaluate (overflow) is `none`.
-/
namespace Diman

/-- operator_trait.rs:6-18 `enum Trait` -/
inductive Trait where
  | add | sub | mul | div | addAssign | subAssign | mulAssign | divAssign | partialEq | partialOrd
deriving DecidableEq, Repr

/-- operator_trait.rs:84-86 `has_output_type` -/
def Trait.hasOutput : Trait → Bool
  | .add | .sub | .mul | .div => true
  | _ => false

/-- operator_trait.rs:89-92 `enum StorageType` -/
inductive StorageSpec where
  | generic
  | concrete (ty : Storage)
deriving DecidableEq, Repr

/-- operator_trait.rs:94-98 `enum QuantityType` -/
inductive QuantityKind where
  | quantity | dimensionless | storage
deriving DecidableEq, Repr

/-- operator_trait.rs:100-104 `enum ReferenceType` -/
inductive RefKind where
  | value | ref | mutRef
deriving DecidableEq, Repr

/-- operator_trait.rs:116-120 `struct Operand` -/
structure Operand where
  kind : QuantityKind
  storage : StorageSpec
  ref : RefKind := .value
deriving DecidableEq, Repr

/-- operator_trait.rs:207-211 `struct OperatorTrait` -/
structure OperatorTrait where
  name : Trait
  lhs : Operand
  rhs : Operand
deriving DecidableEq, Repr

/-- The names of const-generic dimension parameters (operator_trait.rs:249-263). -/
inductive DimName where
  | D | DL | DR
deriving DecidableEq, Repr

/-- The names of storage types in an implementation header (operator_trait.rs:268-283). -/
inductive StName where
  | LHS | RHS | S
  | concrete (ty : Storage)
deriving DecidableEq, Repr

/-- The dimension written in an output type (operator_trait.rs:139-142, 426-449). -/
inductive DimExpr where
  | var (n : DimName)
  | add (a b : DimName)
  | sub (a b : DimName)
  | neg (a : DimName)
  | none
deriving DecidableEq, Repr

/-- Types of generated code, with const generics instantiated. -/
inductive Ty (E : Type) where
  | quantity (s : Storage) (d : DimVal E)
  | bare (s : Storage)
  | unit (d : DimVal E)
  | runtimeUnit (d : DimVal E)
  | bool
  | ordering
deriving DecidableEq

namespace OperatorTrait
variable (o : OperatorTrait)

/-- operator_trait.rs:219-227 `different_dimensions_allowed` -/
def differentDimensionsAllowed : Bool :=
  match o.name with
  | .mul | .div => true
  | _ => false

/-- operator_trait.rs:233-243 `different_storage_types_allowed` -/
def differentStorageTypesAllowed : Bool := decide (o.lhs.kind ≠ .storage) && decide (o.rhs.kind ≠ .storage)

/-- operator_trait.rs:249-263 `dimension_types` -/
def dimensionTypes : Option DimName × Option DimName :=
  match o.lhs.kind, o.rhs.kind with
  | .quantity, .quantity => if o.differentDimensionsAllowed then (some .DL, some .DR) else (some .D, some .D)
  | .quantity, _ => (some .D, none)
  | _, .quantity => (none, some .D)
  | _, _ => (none, none)

/-- operator_trait.rs:268-283 `storage_types` -/
def storageTypes : StName × StName :=
  match o.lhs.storage, o.rhs.storage with
  | .generic, .generic => if o.differentStorageTypesAllowed then (.LHS, .RHS) else (.S, .S)
  | .concrete ty, .generic => (.concrete ty, .S)
  | .generic, .concrete ty => (.S, .concrete ty)
  | .concrete l, .concrete r => (.concrete l, .concrete r)

/-- operator_trait.rs:426-449 `output_quantity_dimension`; `none` is `unreachable!()` (the macro panics). -/
def outputDimension : Option DimExpr :=
  match o.lhs.kind, o.rhs.kind with
  | .quantity, .quantity => match o.name with
    | .mul => some (.add .DL .DR)
    | .div => some (.sub .DL .DR)
    | _ => some (.var .D)
  | .quantity, .storage => some (.var .D)
  | .storage, .quantity => match o.name with
    | .mul => some (.var .D)
    | .div => some (.neg .D)
    | _ => none
  | .dimensionless, .storage | .storage, .dimensionless => some .none
  | _, _ => none

end OperatorTrait

section
variable {E : Type} [FieldOps E]

/-- An instantiation of the generic parameters of an implementation; `n` is the number of base dimensions. -/
structure Inst (E : Type) where
  n : Nat
  D : DimVal E
  DL : DimVal E
  DR : DimVal E
  LHS : Storage
  RHS : Storage
  S : Storage

/-- The dimension a const-generic parameter stands for. -/
def Inst.dim (i : Inst E) : DimName → DimVal E
  | .D => i.D
  | .DL => i.DL
  | .DR => i.DR

/-- The storage type a storage name stands for. -/
def Inst.st (i : Inst E) : StName → Storage
  | .LHS => i.LHS
  | .RHS => i.RHS
  | .S => i.S
  | .concrete ty => ty

/-- The value of an output dimension expression (const evaluation of `DL.add(DR)` and so on). -/
def Inst.evalDim (i : Inst E) : DimExpr → Option (DimVal E)
  | .var a => some (i.dim a)
  | .add a b => (i.dim a).add (i.dim b)
  | .sub a b => (i.dim a).sub (i.dim b)
  | .neg a => (i.dim a).neg
  | .none => some (DimVal.none i.n)

/-- operator_trait.rs:345-365 `type_for_operand` (without the reference sign, which is `Operand.ref`). -/
def typeForOperand (i : Inst E) (op : Operand) (st : StName) (dim : Option DimName) : Option (Ty E) :=
  match op.kind with
  | .quantity => dim.map fun d => .quantity (i.st st) (i.dim d)
  | .dimensionless => some (.quantity (i.st st) (DimVal.none i.n))
  | .storage => some (.bare (i.st st))

namespace OperatorTrait
/-- operator_trait.rs:332-336 `lhs_type` -/
def lhsType (o : OperatorTrait) (i : Inst E) : Option (Ty E) := typeForOperand i o.lhs o.storageTypes.1 o.dimensionTypes.1
/-- operator_trait.rs:339-343 `rhs_type` -/
def rhsType (o : OperatorTrait) (i : Inst E) : Option (Ty E) := typeForOperand i o.rhs o.storageTypes.2 o.dimensionTypes.2
end OperatorTrait
end

/-- Which storage types implement which operator with which output (core floats; glam vectors with vectors and with their float,
in both orders for the binary operators; no ordering on vectors). Not part of diman; needed to resolve the trait bounds
operator_trait.rs:374-411 and the output storage 413-424. -/
def storageOut : Trait → Storage → Storage → Option Storage
  | .add, a, b | .sub, a, b | .mul, a, b | .div, a, b =>
    if a = b then some a
    else if a.isVector ∧ b = a.base.storage then some a
    else if b.isVector ∧ a = b.base.storage then some b
    else none
  | .addAssign, a, b | .subAssign, a, b | .mulAssign, a, b | .divAssign, a, b =>
    if a = b then some a
    else if a.isVector ∧ b = a.base.storage then some a
    else none
  | .partialEq, a, b => if a = b then some a else none
  | .partialOrd, a, b => if a = b ∧ a.isFloat then some a else none

/-- An operand of a quantity of generic dimension. -/
def qG (r : RefKind := .value) : Operand := ⟨.quantity, .generic, r⟩
/-- An operand that is a dimensionless quantity with generic storage. -/
def dG (r : RefKind := .value) : Operand := ⟨.dimensionless, .generic, r⟩
/-- An operand that is a bare generic storage value. -/
def sG (r : RefKind := .value) : Operand := ⟨.storage, .generic, r⟩
/-- An operand that is a quantity with concrete storage. -/
def qC (ty : Storage) (r : RefKind := .value) : Operand := ⟨.quantity, .concrete ty, r⟩
/-- An operand that is a dimensionless quantity with concrete storage. -/
def dC (ty : Storage) (r : RefKind := .value) : Operand := ⟨.dimensionless, .concrete ty, r⟩
/-- An operand that is a bare concrete storage value. -/
def sC (ty : Storage) (r : RefKind := .value) : Operand := ⟨.storage, .concrete ty, r⟩

/-- operator_trait.rs:554-632 `iter_numeric_traits`: every operator implementation that is generated, for the enabled storage types. -/
def iterNumericTraits (storages : List Storage) : List OperatorTrait :=
  ([.add, .sub, .mul, .div].flatMap fun t =>
    [⟨t, qG, qG⟩, ⟨t, qG, qG .ref⟩, ⟨t, qG .ref, qG⟩, ⟨t, qG .ref, qG .ref⟩]) ++
  ([.addAssign, .subAssign].flatMap fun t =>
    [⟨t, qG, qG⟩, ⟨t, qG, qG .ref⟩, ⟨t, qG .mutRef, qG⟩, ⟨t, qG .mutRef, qG .ref⟩]) ++
  ([.mulAssign, .divAssign].flatMap fun t =>
    [⟨t, qG, dG⟩, ⟨t, qG, dG .ref⟩, ⟨t, qG .mutRef, dG⟩, ⟨t, qG .mutRef, dG .ref⟩]) ++
  ([.partialOrd, .partialEq].flatMap fun t =>
    [⟨t, qG, qG⟩, ⟨t, qG, qG .ref⟩, ⟨t, qG .ref, qG⟩]) ++
  ([.add, .sub].flatMap fun t =>
    [⟨t, dG, sG⟩, ⟨t, dG, sG .ref⟩, ⟨t, dG .ref, sG⟩, ⟨t, dG .ref, sG .ref⟩]) ++
  ([.addAssign, .subAssign].flatMap fun t =>
    [⟨t, dG, sG⟩, ⟨t, dG, sG .ref⟩, ⟨t, dG .mutRef, sG⟩, ⟨t, dG .mutRef, sG .ref⟩]) ++
  storages.flatMap fun ty =>
    ([.add, .sub].flatMap fun t =>
      [⟨t, sC ty, dC ty⟩, ⟨t, sC ty, dC ty .ref⟩, ⟨t, sC ty .ref, dC ty⟩, ⟨t, sC ty .ref, dC ty .ref⟩]) ++
    ([.addAssign, .subAssign].flatMap fun t => [⟨t, sC ty, dC ty⟩, ⟨t, sC ty, dC ty .ref⟩]) ++
    ([.mul, .div].flatMap fun t =>
      [⟨t, qG, sC ty⟩, ⟨t, qG .ref, sC ty⟩, ⟨t, qG, sC ty .ref⟩, ⟨t, qG .ref, sC ty .ref⟩,
       ⟨t, sC ty, qG⟩, ⟨t, sC ty .ref, qG⟩, ⟨t, sC ty, qG .ref⟩, ⟨t, sC ty .ref, qG .ref⟩]) ++
    ([.mulAssign, .divAssign].flatMap fun t =>
      [⟨t, qC ty, sC ty⟩, ⟨t, qC ty, sC ty .ref⟩, ⟨t, sC ty, dC ty⟩, ⟨t, sC ty, dC ty .ref⟩]) ++
    ([.partialEq, .partialOrd].flatMap fun t => [⟨t, dG, sC ty⟩, ⟨t, sC ty, dG⟩])

/-- An operand type as the user sees it: a type and how it is passed. -/
structure OpTy (E : Type) where
  ref : RefKind
  ty : Ty E

/-- The outcome of an operator on types: a new value of some type, an update of the left operand, a truth value, an ordering. -/
inductive OpOut (E : Type) where
  | value (t : Ty E)
  | updated
  | bool
  | ordering
deriving DecidableEq

/-- operator_trait.rs:634-664 `gen_operator_trait_impl`: `l op r` type-checks with outcome `out` through the generated implementation
`o` instantiated by `i`. Bounds: operator_trait.rs:374-411 (the storage types implement the operator); output 413-463. -/
def OperatorTrait.Typed {E : Type} [FieldOps E] (o : OperatorTrait) (i : Inst E) (l r : OpTy E) (out : OpOut E) : Prop :=
  l.ref = o.lhs.ref ∧ r.ref = o.rhs.ref ∧ o.lhsType i = some l.ty ∧ o.rhsType i = some r.ty ∧
  ∃ s, storageOut o.name (i.st o.storageTypes.1) (i.st o.storageTypes.2) = some s ∧
  match o.name with
  | .add | .sub | .mul | .div => ∃ e d, o.outputDimension = some e ∧ i.evalDim e = some d ∧ out = .value (.quantity s d)
  | .addAssign | .subAssign | .mulAssign | .divAssign => out = .updated
  | .partialEq => out = .bool
  | .partialOrd => out = .ordering

/-- `l op r` type-checks, with outcome `out`, in the code generated for `n` base dimensions and the given storage types. -/
def OpTyped {E : Type} [FieldOps E] (storages : List Storage) (n : Nat) (t : Trait) (l r : OpTy E) (out : OpOut E) : Prop :=
  ∃ o ∈ iterNumericTraits storages, o.name = t ∧ ∃ i : Inst E, i.n = n ∧ o.Typed i l r out

end Diman
