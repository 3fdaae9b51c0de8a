import Verif.Model.ImplSyn
/-!
# Rules of Rust for an `impl` of an operator trait (C65)
What rustc demands of the header, the signature and the body; and what the header means: which operand types it applies to, and with which outcome.
-/
namespace Diman

/-- The parameters a reference sign, a storage type, a dimension mention. -/
def RefKind.params : RefKind → List GenericParam
  | .value => []
  | .ref | .mutRef => [.lifetime]
def StName.params : StName → List GenericParam
  | .concrete _ => []
  | n => [.storage n]
def DimArg.params : DimArg → List GenericParam
  | .name n => [.dim n]
  | .noneCall => []
def TypeSyn.params : TypeSyn → List GenericParam
  | .quantity r s d => r.params ++ s.params ++ d.params
  | .bare r s => r.params ++ s.params
def DimExpr.params : DimExpr → List GenericParam
  | .var a | .neg a => [.dim a]
  | .add a b | .sub a b => [.dim a, .dim b]
  | .none => []
def WhereBound.params : WhereBound → List GenericParam
  | .implements l _ r => l.params ++ r.params
  | .copy s => s.params
  | .evaluates d => d.params
def OutStorage.params : OutStorage → List GenericParam
  | .concrete _ => []
  | .output l _ r => l.params ++ r.params

def TypeSyn.storage : TypeSyn → StName
  | .quantity _ s _ | .bare _ s => s
def TypeSyn.ref : TypeSyn → RefKind
  | .quantity r _ _ | .bare r _ => r
def TypeSyn.isQuantity : TypeSyn → Bool
  | .quantity .. => true
  | .bare .. => false

/-- A trait of core: its path, its method, how the method takes `self` and its argument, what it returns; `Output` says whether it has the associated type. -/
structure CoreTrait where
  path : Str
  trait : Trait
  method : Str
  selfArg : SelfArg
  argRef : Bool
  ret : RetTy
  output : Bool
deriving DecidableEq

/-- core::ops and core::cmp, as documented. -/
def coreTraits : List CoreTrait := [
  ⟨str!"core::ops::Add", .add, str!"add", .byValue, false, .selfOutput, true⟩,
  ⟨str!"core::ops::Sub", .sub, str!"sub", .byValue, false, .selfOutput, true⟩,
  ⟨str!"core::ops::Mul", .mul, str!"mul", .byValue, false, .selfOutput, true⟩,
  ⟨str!"core::ops::Div", .div, str!"div", .byValue, false, .selfOutput, true⟩,
  ⟨str!"core::ops::AddAssign", .addAssign, str!"add_assign", .byMutRef, false, .unit, false⟩,
  ⟨str!"core::ops::SubAssign", .subAssign, str!"sub_assign", .byMutRef, false, .unit, false⟩,
  ⟨str!"core::ops::MulAssign", .mulAssign, str!"mul_assign", .byMutRef, false, .unit, false⟩,
  ⟨str!"core::ops::DivAssign", .divAssign, str!"div_assign", .byMutRef, false, .unit, false⟩,
  ⟨str!"core::cmp::PartialEq", .partialEq, str!"eq", .byRef, true, .bool, false⟩,
  ⟨str!"core::cmp::PartialOrd", .partialOrd, str!"partial_cmp", .byRef, true, .optionOrdering, false⟩]

/-- The rules for the generic parameters: each is declared once, lifetimes first; what is mentioned is declared; and what is declared occurs in the trait's
parameter or in the implementing type (E0207). -/
def ImplSyn.GenericsLegal (i : ImplSyn) : Prop :=
  i.generics.Nodup ∧ .lifetime ∉ i.generics.tail ∧
  (∀ p ∈ i.rhs.params ++ i.self.params ++ i.bounds.flatMap WhereBound.params ++
    (match i.output with | some (s, d) => s.params ++ d.params | none => []), p ∈ i.generics) ∧
  (∀ p ∈ i.generics, p ∈ i.rhs.params ++ i.self.params)

/-- The orphan rule (E0117, E0210) for a foreign trait, quantities being the only local types: the implementing type is local, or it is a concrete type (no
bare type parameter) and the trait's parameter is local. A reference to a local type is local. -/
def ImplSyn.OrphanLegal (i : ImplSyn) : Prop :=
  i.self.isQuantity = true ∨ ((match i.self.storage with | .concrete _ => true | _ => false) = true ∧ i.rhs.isQuantity = true)

/-- The `impl` is one of the trait `t` and has its items: the method with the right signature, and the associated type exactly if the trait has it. -/
def ImplSyn.Implements (i : ImplSyn) (t : CoreTrait) : Prop :=
  i.traitPath = t.path ∧ i.fnName = t.method ∧ i.selfArg = t.selfArg ∧ i.rhsArgRef = t.argRef ∧ i.ret = t.ret ∧ i.output.isSome = t.output

/-- The storage types have the operator the body calls: by a where clause, or because they are the same concrete type. -/
def ImplSyn.CallLegal (i : ImplSyn) (t : Trait) : Prop :=
  .implements i.self.storage t i.rhs.storage ∈ i.bounds ∨
  (match i.self.storage, i.rhs.storage with | .concrete a, .concrete b => decide (a = b ∧ t ≠ .partialOrd) | _, _ => false) = true

/-- A value of this storage type may be copied: it is concrete (all six are `Copy`), or a where clause says so. -/
def ImplSyn.CanCopy (i : ImplSyn) (s : StName) : Prop :=
  (match s with | .concrete _ => true | _ => false) = true ∨ .copy s ∈ i.bounds

/-- The body moves a value out of a reference only if it may be copied (E0507): arithmetic takes both operands by value, compound assignment the right one,
comparison none. -/
def ImplSyn.MovesLegal (i : ImplSyn) (t : CoreTrait) : Prop :=
  (t.selfArg = .byValue → i.self.ref ≠ .value → i.CanCopy i.self.storage) ∧
  (t.argRef = false → i.rhs.ref ≠ .value → i.CanCopy i.rhs.storage)

/-- The output type: a projection `<L as Trait<R>>::Output` needs the clause `L: Trait<R>`, a computed dimension needs the clause that it evaluates
(`generic_const_exprs`). -/
def ImplSyn.OutputLegal (i : ImplSyn) : Prop :=
  match i.output with
  | none => True
  | some (s, d) =>
    (match s with
      | .concrete _ => True
      | .output l t r => .implements l t r ∈ i.bounds) ∧
    (match d with
      | .var _ => True
      | e => .evaluates e ∈ i.bounds)

/-- All of the rules. -/
def ImplSyn.Legal (i : ImplSyn) : Prop :=
  i.GenericsLegal ∧ i.OrphanLegal ∧ i.OutputLegal ∧ ∃ t ∈ coreTraits, i.Implements t ∧ i.CallLegal t.trait ∧ i.MovesLegal t

/-! ### What the header means -/

section
variable {E : Type} [FieldOps E]

def DimArg.eval (i : Inst E) : DimArg → DimVal E
  | .name n => i.dim n
  | .noneCall => DimVal.none i.n

/-- The type for given generic arguments. -/
def TypeSyn.eval (i : Inst E) : TypeSyn → OpTy E
  | .quantity r s d => ⟨r, .quantity (i.st s) (d.eval i)⟩
  | .bare r s => ⟨r, .bare (i.st s)⟩

/-- The where clause holds: the storage types have the operator; all storage types are `Copy`; the dimension can be computed. -/
def WhereBound.Holds (i : Inst E) : WhereBound → Prop
  | .implements l t r => (storageOut t (i.st l) (i.st r)).isSome = true
  | .copy _ => True
  | .evaluates d => (i.evalDim d).isSome = true

def OutStorage.eval (i : Inst E) : OutStorage → Option Storage
  | .concrete ty => some ty
  | .output l t r => storageOut t (i.st l) (i.st r)

/-- The outcome the header says. -/
def ImplSyn.Says (impl : ImplSyn) (i : Inst E) (out : OpOut E) : Prop :=
  match impl.output with
  | some (s, d) => ∃ s' d', s.eval i = some s' ∧ i.evalDim d = some d' ∧ out = .value (.quantity s' d')
  | none => match impl.ret with
    | .unit => out = .updated
    | .bool => out = .bool
    | .optionOrdering => out = .ordering
    | .selfOutput => False

/-- The `impl` applies to operands of the types `l` and `r` with outcome `out`: for the generic arguments `i`, these are the types in the header and the
where clauses hold. -/
def ImplSyn.Applies (impl : ImplSyn) (i : Inst E) (l r : OpTy E) (out : OpOut E) : Prop :=
  impl.self.eval i = l ∧ impl.rhs.eval i = r ∧ (∀ b ∈ impl.bounds, b.Holds i) ∧ impl.Says i out
end
end Diman
