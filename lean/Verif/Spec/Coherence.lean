import Verif.Model.Impls
import Verif.Model.Magnitude
/-!
# Rules of Rust for a set of `impl` blocks (C67)
Types without variables; what it means that two headers apply to the same type (E0119, E0592); the rules for one header (E0207, E0117/E0210) and for the
items of an implementation of a trait (E0046, E0407/E0437).
-/
namespace Diman

/-- The types (and const arguments) of a program: named types, any other type constructor, application, references, dimensions and magnitudes. -/
inductive RTy (E : Type) where
  | head (h : TyHead)
  | other (name : Str)
  | app (f x : RTy E)
  | ref (mutable : Bool) (t : RTy E)
  | dim (d : DimVal E)
  | mag (m : Magnitude)

/-- The type does not mention the types of any unit system: a type of another crate, or of the user. -/
def RTy.Foreign {E : Type} : RTy E → Prop
  | .head (.loc _ _) => False
  | .app f x => f.Foreign ∧ x.Foreign
  | .ref _ t => t.Foreign
  | _ => True

section
variable {E : Type} [FieldOps E]

/-- The type a header names, for given arguments; there are `n` base dimensions. -/
def TyPat.inst {V : Type} (n : Nat) (σ : V → RTy E) : TyPat V → RTy E
  | .var v => σ v
  | .head h => .head h
  | .app f x => .app (f.inst n σ) (x.inst n σ)
  | .ref m t => .ref m (t.inst n σ)
  | .none => .dim (DimVal.none n)

/-- Is the parameter a storage type? -/
def GVar.isStorage : GVar → Bool
  | .S | .LHS | .RHS => true
  | _ => false

/-- Arguments for the generic parameters, in which what is stored in a quantity is not itself made of quantities or units. -/
def Proper (σ : GVar → RTy E) : Prop := ∀ v, v.isStorage = true → (σ v).Foreign

/-- Two headers apply to the same type (and the same parameters of the trait) for some proper arguments. -/
def Overlap (E : Type) [FieldOps E] (n m : Nat) (i j : ImplBlock) : Prop :=
  ∃ σ τ : GVar → RTy E, Proper σ ∧ Proper τ ∧ i.self.inst n σ = j.self.inst m τ ∧
    match i.trait, j.trait with
    | some (_, xs), some (_, ys) => xs.map (TyPat.inst n σ) = ys.map (TyPat.inst m τ)
    | _, _ => True

/-- Two `impl` blocks conflict: they implement the same trait for the same type (E0119), or they both define an inherent item of the same name for the same
type (E0592). -/
def Conflict (E : Type) [FieldOps E] (n m : Nat) (i j : ImplBlock) : Prop :=
  Overlap E n m i j ∧
    ((∃ t xs ys, i.trait = some (t, xs) ∧ j.trait = some (t, ys)) ∨ (i.trait = none ∧ j.trait = none ∧ ∃ x ∈ i.items, x ∈ j.items))
end

/-- The implementations of core, serde and mpi for all types, or for all references, of the traits concerned. (All other implementations there are for types
of these crates, and cannot apply to a local type.) `GVar.D` and `GVar.F` stand for arbitrary types. -/
def blanketImpls : List ImplBlock :=
  let A : TyPat GVar := .var .D
  let B : TyPat GVar := .var .F
  [⟨[.D], some (.from, [A]), A, []⟩] ++
  ([false, true].flatMap fun m => [false, true].map fun m' => ⟨[.D, .F], some (.op .partialEq, [.ref m' B]), .ref m A, []⟩) ++
  ([false, true].map fun m => ⟨[.D, .F], some (.op .partialOrd, [.ref m B]), .ref m A, []⟩) ++
  ([false, true].map fun m => ⟨[.D], some (.deref, []), .ref m A, []⟩) ++
  ([false, true].map fun m => ⟨[.D], some (.debug, []), .ref m A, []⟩) ++
  ([false, true].map fun m => ⟨[.D], some (.serialize, []), .ref m A, []⟩) ++
  [⟨[.D], some (.clone, []), .ref false A, []⟩, ⟨[.D], some (.copy, []), .ref false A, []⟩]

/-! ### One header -/

def TyPat.vars {V : Type} : TyPat V → List V
  | .var v => [v]
  | .head _ | .none => []
  | .app f x => f.vars ++ x.vars
  | .ref _ t => t.vars

/-- A type is local if, behind references, it is a type of the unit system. -/
def TyPat.isLocal {V : Type} : TyPat V → Bool
  | .head (.loc _ _) => true
  | .app f _ => f.isLocal
  | .ref _ t => t.isLocal
  | _ => false

/-- The types in the header: the implementing type and the parameters of the trait. -/
def ImplBlock.types (i : ImplBlock) : List (TyPat GVar) := i.self :: (match i.trait with | some (_, xs) => xs | none => [])

/-- Every generic parameter is declared once, and occurs in the header; everything that occurs there is declared (E0403, E0207, E0412). -/
def ImplBlock.GenericsLegal (i : ImplBlock) : Prop := i.generics.Nodup ∧ ∀ v, v ∈ i.generics ↔ ∃ t ∈ i.types, v ∈ t.vars

/-- Inherent `impl`s only for local types (E0116); for traits of other crates one of the types is local, and none before it is a bare parameter
(E0117, E0210). -/
def ImplBlock.OrphanLegal (i : ImplBlock) : Prop :=
  match i.trait with
  | none => i.self.isLocal = true
  | some _ => ∃ pre t post, i.types = pre ++ t :: post ∧ t.isLocal = true ∧ ∀ p ∈ pre, p.vars = []

/-- The items of a trait: those an implementation must have, and those it may have. As documented for core, serde 1, rand 0.8, mpi and hdf5. -/
def TraitId.itemTable : TraitId → List Str × List Str
  | .op .add => ([str!"Output", str!"add"], [])
  | .op .sub => ([str!"Output", str!"sub"], [])
  | .op .mul => ([str!"Output", str!"mul"], [])
  | .op .div => ([str!"Output", str!"div"], [])
  | .op .addAssign => ([str!"add_assign"], [])
  | .op .subAssign => ([str!"sub_assign"], [])
  | .op .mulAssign => ([str!"mul_assign"], [])
  | .op .divAssign => ([str!"div_assign"], [])
  | .op .partialEq => ([str!"eq"], [str!"ne"])
  | .op .partialOrd => ([str!"partial_cmp"], [str!"lt", str!"le", str!"gt", str!"ge"])
  | .neg => ([str!"Output", str!"neg"], [])
  | .sum => ([str!"sum"], [])
  | .from => ([str!"from"], [])
  | .deref => ([str!"Target", str!"deref"], [])
  | .debug => ([str!"fmt"], [])
  | .clone => ([str!"clone"], [str!"clone_from"])
  | .copy | .constParamTy => ([], [])
  | .eq => ([], [])
  | .default => ([str!"default"], [])
  | .deserialize => ([str!"deserialize"], [str!"deserialize_in_place"])
  | .visitor => ([str!"Value", str!"expecting"],
      [str!"visit_bool", str!"visit_i8", str!"visit_i16", str!"visit_i32", str!"visit_i64", str!"visit_i128", str!"visit_u8", str!"visit_u16",
       str!"visit_u32", str!"visit_u64", str!"visit_u128", str!"visit_f32", str!"visit_f64", str!"visit_char", str!"visit_str",
       str!"visit_borrowed_str", str!"visit_string", str!"visit_bytes", str!"visit_borrowed_bytes", str!"visit_byte_buf", str!"visit_none",
       str!"visit_some", str!"visit_unit", str!"visit_newtype_struct", str!"visit_seq", str!"visit_map", str!"visit_enum"])
  | .serialize => ([str!"serialize"], [])
  | .h5Type => ([str!"type_descriptor"], [])
  | .equivalence => ([str!"Out", str!"equivalent_datatype"], [])
  | .uniformSampler => ([str!"X", str!"new", str!"new_inclusive", str!"sample"], [str!"sample_single", str!"sample_single_inclusive"])
  | .sampleUniform => ([str!"Sampler"], [])

/-- No item twice, all that the trait demands, nothing it does not have. -/
def ImplBlock.ItemsLegal (i : ImplBlock) : Prop :=
  i.items.Nodup ∧ ∀ t xs, i.trait = some (t, xs) →
    (∀ x ∈ t.itemTable.1, x ∈ i.items) ∧ ∀ x ∈ i.items, x ∈ t.itemTable.1 ∨ x ∈ t.itemTable.2

/-- All of the rules for one block. -/
def ImplBlock.Legal (i : ImplBlock) : Prop := i.GenericsLegal ∧ i.OrphanLegal ∧ i.ItemsLegal

/-- What a trait demands to be implemented too (core::cmp, core::marker): the other trait and its parameters, the type being the same. -/
def ImplBlock.demands (i : ImplBlock) : Option (TraitId × List (TyPat GVar)) :=
  match i.trait with
  | some (.op .partialOrd, xs) => some (.op .partialEq, xs)
  | some (.copy, _) => some (.clone, [])
  | some (.eq, _) => some (.op .partialEq, [i.self])
  | some (.constParamTy, _) => some (.eq, [])
  | _ => none

/-- Whatever the arguments, the type that the block `i` applies to has what the trait of `i` demands, by one of `impls`. -/
def ImplBlock.Supported (E : Type) [FieldOps E] (n : Nat) (impls : List ImplBlock) (i : ImplBlock) : Prop :=
  ∀ t xs, i.demands = some (t, xs) → ∀ σ : GVar → RTy E, ∃ j ∈ impls, ∃ ys, j.trait = some (t, ys) ∧ ∃ τ : GVar → RTy E,
    j.self.inst n τ = i.self.inst n σ ∧ ys.map (TyPat.inst n τ) = xs.map (TyPat.inst n σ)
end Diman
