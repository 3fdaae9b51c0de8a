import Verif.Model.ImplSyn
import Verif.Model.Features
/-!
# All generated `impl` blocks
Models the headers of every `impl` block that codegen/mod.rs:55-75 `code_gen` writes, with the names of the items inside, for given cargo features.
Simplifications: lifetimes and where clauses are left out (for the operators both are in `Model/ImplSyn`); types are named by what they stand for, not by
the path written (that the paths resolve is C49). Derived implementations are listed like written ones.
-/
namespace Diman

/-- The types one `unit_system!` defines: quantity_type.rs:16, unit_type.rs:13-14, dimension_type.rs:158, rand.rs:24, serde.rs:31. -/
inductive LocalTy where
  | quantity | unit | runtimeUnit | dimension | uniformQuantity | quantityVisitor
deriving DecidableEq, Repr

/-- The named types in headers: those of the unit system number `sys`, and types of other crates. -/
inductive TyHead where
  | loc (sys : Nat) (t : LocalTy)
  | storage (s : Storage)
  | magnitude
deriving DecidableEq, Repr

/-- The generic parameters of `impl` blocks. -/
inductive GVar where
  | D | DL | DR | F | FL | FR | S | LHS | RHS
deriving DecidableEq, Repr

/-- A type (or const argument) in a header. Types with parameters are applied to one at a time; `none` is `{ Dimension::none() }`. -/
inductive TyPat (V : Type) where
  | var (v : V)
  | head (h : TyHead)
  | app (f x : TyPat V)
  | ref (mutable : Bool) (t : TyPat V)
  | none
deriving DecidableEq, Repr

/-- The traits implemented. -/
inductive TraitId where
  | op (t : Trait)
  | neg | sum | from | deref | debug | clone | copy | eq | default | constParamTy
  | deserialize | visitor | serialize | h5Type | equivalence | uniformSampler | sampleUniform
deriving DecidableEq, Repr

/-- An `impl` block: generic parameters, the trait with its parameters (`none`: inherent), the type, the names of the items. -/
structure ImplBlock where
  generics : List GVar
  trait : Option (TraitId × List (TyPat GVar))
  self : TyPat GVar
  items : List Str
deriving DecidableEq, Repr

section
variable (sys : Nat)

/-- `Quantity<s, d>` -/
def quantityPat (s d : TyPat GVar) : TyPat GVar := .app (.app (.head (.loc sys .quantity)) s) d
/-- `Unit<d, f>` -/
def unitPat (d f : GVar) : TyPat GVar := .app (.app (.head (.loc sys .unit)) (.var d)) (.var f)
/-- `RuntimeUnit<d>` -/
def runtimeUnitPat (d : GVar) : TyPat GVar := .app (.head (.loc sys .runtimeUnit)) (.var d)
/-- `UniformQuantity<s, D>` -/
def uniformPat (s : TyPat GVar) : TyPat GVar := .app (.app (.head (.loc sys .uniformQuantity)) s) (.var .D)
/-- `QuantityVisitor<s, D>` -/
def visitorPat (s : TyPat GVar) : TyPat GVar := .app (.app (.head (.loc sys .quantityVisitor)) s) (.var .D)
/-- a storage type -/
def stPat (s : Storage) : TyPat GVar := .head (.storage s)

/-- dimension_type.rs:157-163 (derives), 218-269 (methods) -/
def dimensionImpls : List ImplBlock :=
  let dim : TyPat GVar := .head (.loc sys .dimension)
  [⟨[], some (.op .partialEq, [dim]), dim, [str!"eq"]⟩, ⟨[], some (.eq, []), dim, []⟩, ⟨[], some (.clone, []), dim, [str!"clone"]⟩,
   ⟨[], some (.debug, []), dim, [str!"fmt"]⟩, ⟨[], some (.constParamTy, []), dim, []⟩,
   ⟨[], none, dim, [str!"none", str!"add", str!"sub", str!"neg", str!"mul", str!"div_2", str!"div_3"]⟩]

/-- quantity_type.rs:14 (derives), 25-76 -/
def quantityImpls : List ImplBlock :=
  let q := quantityPat sys (.var .S) (.var .D)
  let q0 := quantityPat sys (.var .S) .none
  [⟨[.S, .D], some (.clone, []), q, [str!"clone"]⟩, ⟨[.S, .D], some (.copy, []), q, []⟩, ⟨[.S, .D], some (.eq, []), q, []⟩,
   ⟨[.S, .D], some (.default, []), q, [str!"default"]⟩,
   ⟨[.S], none, q0, [str!"value", str!"value_ref"]⟩,
   ⟨[.S, .D], none, q, [str!"value_unchecked", str!"value_unchecked_ref", str!"new_unchecked"]⟩,
   ⟨[.D, .S], none, q, [str!"value_in"]⟩,
   ⟨[.S], some (.deref, []), q0, [str!"Target", str!"deref"]⟩]

/-- quantity_type.rs:70 `type Target = S` -/
def derefTarget : GVar := .S

/-- The functions of an inherent block that take `self`: all but the constructors (quantity_type.rs:55, float_methods.rs:154, vector_methods.rs:20-82, 105,
dimension_type.rs:221). `Unit::new` and `RuntimeUnit::new` (unit_type.rs:98, 159) do. -/
def ImplBlock.methods (i : ImplBlock) : List Str :=
  match i.self with
  | .app (.app (.head (.loc _ .quantity)) _) _ =>
    i.items.filter fun x => !(decide (x ∈ [str!"new_unchecked", str!"zero", str!"new", str!"new_x", str!"new_y", str!"new_z"]))
  | .head (.loc _ .dimension) => i.items.filter fun x => !(decide (x = str!"none"))
  | _ => i.items

/-- The names of the generic parameters in operator headers. -/
def DimName.gvar : DimName → GVar
  | .D => .D
  | .DL => .DL
  | .DR => .DR
def StName.pat : StName → TyPat GVar
  | .LHS => .var .LHS
  | .RHS => .var .RHS
  | .S => .var .S
  | .concrete ty => stPat ty
/-- The reference sign in front of a type. -/
def RefKind.pat (r : RefKind) (t : TyPat GVar) : TyPat GVar :=
  match r with
  | .value => t
  | .ref => .ref false t
  | .mutRef => .ref true t
/-- An operand type of an operator header (`TypeSyn`, operator_trait.rs:345-365). -/
def TypeSyn.pat : TypeSyn → TyPat GVar
  | .quantity r s (.name n) => r.pat (quantityPat sys s.pat (.var n.gvar))
  | .quantity r s .noneCall => r.pat (quantityPat sys s.pat .none)
  | .bare r s => r.pat s.pat
/-- The generic parameters other than lifetimes. -/
def GenericParam.gvar : GenericParam → Option GVar
  | .lifetime => none
  | .dim n => some n.gvar
  | .storage .LHS => some .LHS
  | .storage .RHS => some .RHS
  | .storage .S => some .S
  | .storage (.concrete _) => none

/-- operator_trait.rs:634-664, as a header -/
def ImplSyn.block (t : Trait) (i : ImplSyn) : ImplBlock :=
  ⟨i.generics.filterMap GenericParam.gvar, some (.op t, [i.rhs.pat sys]), i.self.pat sys,
   (if i.output.isSome then [str!"Output"] else []) ++ [i.fnName]⟩

/-- operator_trait.rs:547-551 `gen_operator_trait_impls` (no operator is left out: `C65_legal`) -/
def operatorImpls (storages : List Storage) : List ImplBlock :=
  (iterNumericTraits storages).filterMap fun o => o.genImpl.map fun i => i.block sys o.name

/-- num_traits/mod.rs:22-68 -/
def sumNegFromImpls : List ImplBlock :=
  let q := quantityPat sys (.var .S) (.var .D)
  [⟨[.D, .S], some (.sum, [q]), q, [str!"sum"]⟩, ⟨[.D, .S], some (.neg, []), q, [str!"Output", str!"neg"]⟩,
   ⟨[.S], some (.from, [.var .S]), quantityPat sys (.var .S) .none, [str!"from"]⟩]

/-- unit_type.rs:20-178 -/
def unitImpls : List ImplBlock :=
  let u := unitPat sys
  let r := runtimeUnitPat sys
  let q := fun d => quantityPat sys (.var .S) (.var d)
  let mul := fun gs a b => (⟨gs, some (.op .mul, [b]), a, [str!"Output", str!"mul"]⟩ : ImplBlock)
  let div := fun gs a b => (⟨gs, some (.op .div, [b]), a, [str!"Output", str!"div"]⟩ : ImplBlock)
  [mul [.DL, .DR, .FL, .FR] (u .DL .FL) (u .DR .FR), div [.DL, .DR, .FL, .FR] (u .DL .FL) (u .DR .FR),
   mul [.DL, .DR, .FL, .S] (u .DL .FL) (q .DR), mul [.DL, .DR, .FR, .S] (q .DL) (u .DR .FR),
   div [.DL, .DR, .FL, .S] (u .DL .FL) (q .DR), div [.DL, .DR, .FR, .S] (q .DL) (u .DR .FR),
   ⟨[.D, .F], none, u .D .F, [str!"new"]⟩,
   mul [.DL, .DR, .S] (r .DL) (q .DR), mul [.DL, .DR, .S] (q .DL) (r .DR), div [.DL, .DR, .S] (r .DL) (q .DR), div [.DL, .DR, .S] (q .DL) (r .DR),
   ⟨[.D], none, r .D, [str!"new"]⟩,
   ⟨[.D, .F], some (.from, [u .D .F]), .head .magnitude, [str!"from"]⟩, ⟨[.D], some (.from, [r .D]), .head .magnitude, [str!"from"]⟩]

/-- unit_type.rs:190-266, for one storage type -/
def unitStorageImpls (s : Storage) : List ImplBlock :=
  let u := unitPat sys .D .F
  let r := runtimeUnitPat sys .D
  let mul := fun gs a b => (⟨gs, some (.op .mul, [b]), a, [str!"Output", str!"mul"]⟩ : ImplBlock)
  let div := fun gs a b => (⟨gs, some (.op .div, [b]), a, [str!"Output", str!"div"]⟩ : ImplBlock)
  [mul [.D, .F] (stPat s) u, div [.D, .F] (stPat s) u, mul [.D, .F] u (stPat s), div [.D, .F] u (stPat s),
   mul [.D] (stPat s) r, div [.D] (stPat s) r, mul [.D] r (stPat s), div [.D] r (stPat s)]

/-- debug_trait.rs:61 -/
def debugImpl : ImplBlock := ⟨[.D, .S], some (.debug, []), quantityPat sys (.var .S) (.var .D), [str!"fmt"]⟩

/-- float_methods.rs:54-77: the names of the functions -/
def _root_.Diman.FloatFn.rustName : FloatFn → Str
  | .log2 => str!"log2" | .ln => str!"ln" | .log10 => str!"log10" | .exp => str!"exp" | .exp2 => str!"exp2" | .ceil => str!"ceil"
  | .floor => str!"floor" | .sin => str!"sin" | .cos => str!"cos" | .tan => str!"tan" | .asin => str!"asin" | .acos => str!"acos"
  | .atan => str!"atan" | .sinh => str!"sinh" | .cosh => str!"cosh" | .tanh => str!"tanh" | .asinh => str!"asinh" | .acosh => str!"acosh"
  | .atanh => str!"atanh" | .expM1 => str!"exp_m1" | .ln1p => str!"ln_1p"

/-- float_methods.rs:54-77, in order -/
def _root_.Diman.FloatFn.list : List FloatFn :=
  [.log2, .ln, .log10, .exp, .exp2, .ceil, .floor, .sin, .cos, .tan, .asin, .acos, .atan, .sinh, .cosh, .tanh, .asinh, .acosh, .atanh, .expM1, .ln1p]

/-- float_methods.rs:23-48: one block per function and float type -/
def dimensionlessImpls (floats : List Storage) : List ImplBlock :=
  FloatFn.list.flatMap fun f => floats.map fun s => ⟨[], none, quantityPat sys (stPat s) .none, [f.rustName]⟩

/-- float_methods.rs:96-180 -/
def floatImpls (math : Bool) (s : Storage) : List ImplBlock :=
  [⟨[.D], none, quantityPat sys (stPat s) (.var .D),
    [str!"squared", str!"cubed", str!"powi"] ++ (if math then [str!"sqrt", str!"cbrt"] else []) ++
    [str!"min", str!"max", str!"clamp", str!"zero", str!"is_positive", str!"is_positive_or_zero", str!"is_negative", str!"is_negative_or_zero",
     str!"is_nan"]⟩]

/-- vector_methods.rs:14-146 -/
def vectorImpls (s : Storage) : List ImplBlock :=
  let three := s.numDims == 3
  [⟨[.D], none, quantityPat sys (stPat s) (.var .D),
    [str!"new", str!"new_x", str!"new_y"] ++ (if three then [str!"new_z"] else []) ++ [str!"x", str!"y"] ++ (if three then [str!"z"] else []) ++
    [str!"set_x", str!"set_y"] ++ (if three then [str!"set_z"] else []) ++
    [str!"zero", str!"min", str!"max", str!"length", str!"distance", str!"distance_squared", str!"normalize", str!"dot"]⟩]

/-- generic_methods.rs:8-29 -/
def genericImpls (s : Storage) : List ImplBlock := [⟨[.D], none, quantityPat sys (stPat s) (.var .D), [str!"abs"]⟩]

/-- serde.rs:100-191 (a float type), 206-273 (a vector type) -/
def serdeImpls (s : Storage) : List ImplBlock :=
  let q := quantityPat sys (stPat s) (.var .D)
  [⟨[.D], some (.deserialize, []), q, [str!"deserialize"]⟩,
   ⟨[.D], some (.visitor, []), visitorPat sys (stPat s),
    if s.isFloat then [str!"Value", str!"expecting", str!"visit_i64", str!"visit_u64", str!"visit_f64", str!"visit_str"]
    else [str!"Value", str!"expecting", str!"visit_str"]⟩,
   ⟨[.D], some (.serialize, []), q, [str!"serialize"]⟩]

/-- serde.rs:30-31 `#[derive(Default)] struct QuantityVisitor` -/
def visitorDefault : ImplBlock := ⟨[.S, .D], some (.default, []), visitorPat sys (.var .S), [str!"default"]⟩

/-- hdf5.rs:26, 48 -/
def hdf5Impls (s : Storage) : List ImplBlock :=
  [⟨[.D], some (.h5Type, []), quantityPat sys (stPat s) (.var .D), [str!"type_descriptor"]⟩]

/-- mpi.rs:28, 54 -/
def mpiImpls (s : Storage) : List ImplBlock :=
  [⟨[.D], some (.equivalence, []), quantityPat sys (stPat s) (.var .D), [str!"Out", str!"equivalent_datatype"]⟩]

/-- rand.rs:23-24 `#[derive(Clone, Copy, Debug)] struct UniformQuantity` -/
def uniformDerives : List ImplBlock :=
  [⟨[.S, .D], some (.clone, []), uniformPat sys (.var .S), [str!"clone"]⟩, ⟨[.S, .D], some (.copy, []), uniformPat sys (.var .S), []⟩,
   ⟨[.S, .D], some (.debug, []), uniformPat sys (.var .S), [str!"fmt"]⟩]

/-- rand.rs:35-65 -/
def randImpls (s : Storage) : List ImplBlock :=
  [⟨[.D], some (.uniformSampler, []), uniformPat sys (stPat s), [str!"X", str!"new", str!"new_inclusive", str!"sample"]⟩,
   ⟨[.D], some (.sampleUniform, []), quantityPat sys (stPat s) (.var .D), [str!"Sampler"]⟩]

/-- codegen/mod.rs:55-75 `code_gen`: all blocks, in order -/
def allImpls (on : Feature → Bool) : List ImplBlock :=
  dimensionImpls sys ++ quantityImpls sys ++ unitImpls sys ++ (storageTypes on).flatMap (unitStorageImpls sys) ++
  operatorImpls sys (storageTypes on) ++ sumNegFromImpls sys ++ [debugImpl sys] ++
  (if hasMath on then dimensionlessImpls sys (floatTypes on) else []) ++ (floatTypes on).flatMap (floatImpls sys (hasMath on)) ++
  (vectorTypes on).flatMap (vectorImpls sys) ++ (storageTypes on).flatMap (genericImpls sys) ++
  (if on .serde then visitorDefault sys :: (storageTypes on).flatMap (serdeImpls sys) else []) ++
  (if on .hdf5 then (storageTypes on).flatMap (hdf5Impls sys) else []) ++
  (if on .mpi then (storageTypes on).flatMap (mpiImpls sys) else []) ++
  (if on .rand then uniformDerives sys ++ (floatTypes on).flatMap (randImpls sys) else [])
end
end Diman
