import Verif.Model.Operators
/-!
# Which operators exist
The operators of a unit system as a user sees them: by the types of both operands and the way they are passed.
-/
namespace Diman

/-- Both operands may be passed by value or by reference. -/
def ByValueOrRef {E : Type} (l r : OpTy E) : Prop := l.ref ≠ .mutRef ∧ r.ref ≠ .mutRef

/-- `place op= r`: the place is owned or behind `&mut`, the right operand is passed by value or by reference. -/
def Assigns {E : Type} (l r : OpTy E) : Prop := l.ref ≠ .ref ∧ r.ref ≠ .mutRef

/-- `place op= r` with an owned place only. -/
def AssignsOwned {E : Type} (l r : OpTy E) : Prop := l.ref = .value ∧ r.ref ≠ .mutRef

/-- Quantities can be compared with a reference on one side, but not on both. -/
def Compares {E : Type} (l r : OpTy E) : Prop :=
  (l.ref = .value ∧ r.ref = .value) ∨ (l.ref = .value ∧ r.ref = .ref) ∨ (l.ref = .ref ∧ r.ref = .value)

/-- Numbers and quantities are compared by value. -/
def ComparesValues {E : Type} (l r : OpTy E) : Prop := l.ref = .value ∧ r.ref = .value

/-- `l t r` exists for these operands, with outcome `out`; `n` is the number of base dimensions, `storages` the storage types
enabled by features. Between two quantities any storage types that support the operator; `+`, `-` and comparisons need equal
dimensions, `*` and `/` add and subtract them, `*=` and `/=` need a dimensionless right operand. A number counts as dimensionless. -/
def OperatorExists {E : Type} [FieldOps E] (storages : List Storage) (n : Nat) (t : Trait) (l r : OpTy E) (out : OpOut E) : Prop :=
  match l.ty, r.ty with
  | .quantity sl dl, .quantity sr dr => ∃ s, storageOut t sl sr = some s ∧
    match t with
    | .add | .sub => ByValueOrRef l r ∧ dl = dr ∧ out = .value (.quantity s dl)
    | .mul => ByValueOrRef l r ∧ ∃ d, dl.add dr = some d ∧ out = .value (.quantity s d)
    | .div => ByValueOrRef l r ∧ ∃ d, dl.sub dr = some d ∧ out = .value (.quantity s d)
    | .addAssign | .subAssign => Assigns l r ∧ dl = dr ∧ out = .updated
    | .mulAssign | .divAssign => Assigns l r ∧ dr = DimVal.none n ∧ out = .updated
    | .partialEq => Compares l r ∧ dl = dr ∧ out = .bool
    | .partialOrd => Compares l r ∧ dl = dr ∧ out = .ordering
  | .quantity sl dl, .bare sr => ∃ s, storageOut t sl sr = some s ∧
    match t with
    | .add | .sub => ByValueOrRef l r ∧ sl = sr ∧ dl = DimVal.none n ∧ out = .value (.quantity s dl)
    | .mul | .div => ByValueOrRef l r ∧ sr ∈ storages ∧ out = .value (.quantity s dl)
    | .addAssign | .subAssign => Assigns l r ∧ sl = sr ∧ dl = DimVal.none n ∧ out = .updated
    | .mulAssign | .divAssign => AssignsOwned l r ∧ sl = sr ∧ sr ∈ storages ∧ out = .updated
    | .partialEq => ComparesValues l r ∧ sr ∈ storages ∧ dl = DimVal.none n ∧ out = .bool
    | .partialOrd => ComparesValues l r ∧ sr ∈ storages ∧ dl = DimVal.none n ∧ out = .ordering
  | .bare sl, .quantity sr dr => ∃ s, storageOut t sl sr = some s ∧ sl ∈ storages ∧
    match t with
    | .add | .sub => ByValueOrRef l r ∧ sl = sr ∧ dr = DimVal.none n ∧ out = .value (.quantity s dr)
    | .mul => ByValueOrRef l r ∧ out = .value (.quantity s dr)
    | .div => ByValueOrRef l r ∧ ∃ d, dr.neg = some d ∧ out = .value (.quantity s d)
    | .addAssign | .subAssign | .mulAssign | .divAssign => AssignsOwned l r ∧ sl = sr ∧ dr = DimVal.none n ∧ out = .updated
    | .partialEq => ComparesValues l r ∧ dr = DimVal.none n ∧ out = .bool
    | .partialOrd => ComparesValues l r ∧ dr = DimVal.none n ∧ out = .ordering
  | _, _ => False

end Diman
