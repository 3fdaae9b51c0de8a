import Verif.Spec.Scope
import Verif.Model.DimType
import Verif.Model.System
/-!
# The names in the generated code
Models which items the macro emits, into which modules, under which names, and which names the emitted code uses: codegen/mod.rs
`code_gen`, dimension_type.rs `gen_dimension`, quantity_type.rs `gen_quantity`, dimensions.rs, units_and_constants.rs, unit_type.rs,
float_methods.rs `ensure_float_traits`, serde.rs `serde_helpers_impl`, rand.rs `gen_rand_impl`. Bodies of `impl` blocks bind no module
level names and are left out here (the other `Model/` files model what they do); of the names used inside them the ones that come from
the unit system or from an import of the emitted code are listed as references. Simplifications: the macro is the only thing in
its module; names of the prelude, of primitive types and of generic parameters are not listed; the four `impl`-only generators
(`gen_numeric_trait_impls`, `gen_debug_trait_impl`, `gen_vector_methods`, `gen_generic_methods`, and with features `gen_hdf5_impl`,
`gen_mpi_impl`) use no other names than `#quantity_type`, `#dimension_type`, `Exponent`.
-/
namespace Diman

/-- The cargo features that change which items are emitted. -/
structure EmitFeatures where
  rational : Bool
  libm : Bool
  serde : Bool
  rand : Bool
deriving DecidableEq

/-- What a name in the generated code stands for. -/
inductive Entity (E M : Type) where
  | dimensionType
  | quantityType
  | unitType
  | runtimeUnit
  | magnitude
  | exponent
  | submodule (name : Str)
  /-- something from the standard library, `diman_lib` or another crate -/
  | foreign (path : Str)
  /-- a helper of the serde or rand support code -/
  | helper (name : Str)
  /-- `pub type NAME<S> = Quantity::<S, { dims }>` -/
  | alias (dims : Option (DimVal E))
  /-- `pub const NAME: Unit<{ dims }, { mag }> = Unit` -/
  | unit (dims : Option (DimVal E)) (mag : M)

section
variable {E M : Type} [Exponent E] [FieldOps E]

local notation "I" => ScopeItem (Entity E M)
local notation "R" => ScopeRef (Entity E M)

/-- dimension_type.rs:135-192 `gen_dimension` and `use_exponent_and_dimension_exponent_trait`: two imports and the dimension type,
a struct with named fields. -/
def emitDimension (d : Defs E M) : List I :=
  [.binds false [.type] (str!"Exponent") .exponent,
   .binds false [.type] (str!"DimensionExponent") (.foreign (str!"dimension_exponent::DimensionExponent")),
   .binds true [.type] d.dimensionType .dimensionType]

/-- quantity_type.rs:8-19 `gen_quantity`: a tuple struct, so its name is also its constructor. -/
def emitQuantity (d : Defs E M) : List I := [.binds true [.type, .value] d.quantityType .quantityType]

/-- dimensions.rs:28-41 `gen_dimensions`: the module itself -/
def emitDimensionsMod : List I := [.binds true [.type] (str!"dimensions") (.submodule (str!"dimensions"))]

/-- units_and_constants.rs:9-62: what `gen_units_and_constants` puts into the enclosing module. -/
def emitUnitsAndConstants : List I :=
  [.binds true [.type] (str!"Magnitude") .magnitude,
   .binds false [.type] (str!"unit_type") (.submodule (str!"unit_type")),
   .reexport (str!"unit_type") (str!"Unit"),
   .binds true [.type] (str!"units") (.submodule (str!"units")),
   .binds true [.type] (str!"constants") (.submodule (str!"constants"))]

/-- float_methods.rs:7-21 `ensure_float_traits` -/
def emitFloatTraits (f : EmitFeatures) : List I :=
  if f.libm then [.binds false [.type] (str!"Float") (.foreign (str!"num_traits::float::Float"))]
  else [.binds false [.type] (str!"FloatCore") (.foreign (str!"num_traits::float::FloatCore"))]

/-- serde.rs:19-87 `serde_helpers_impl` -/
def emitSerde (f : EmitFeatures) : List I :=
  if f.serde then
    [.binds false [.type, .value] (str!"PhantomData") (.foreign (str!"core::marker::PhantomData")),
     .binds false [.type] (str!"SplitWhitespace") (.foreign (str!"std::str::SplitWhitespace")),
     .binds false [.type] (str!"de") (.foreign (str!"serde::de")),
     .binds false [.type, .value] (str!"QuantityVisitor") (.helper (str!"QuantityVisitor")),
     .binds false [.value] (str!"get_quantity_if_dimensions_match") (.helper (str!"get_quantity_if_dimensions_match")),
     .binds false [.value] (str!"read_unit_str") (.helper (str!"read_unit_str")),
     .binds false [.value] (str!"read_single_unit_str") (.helper (str!"read_single_unit_str"))]
  else []

/-- rand.rs:16-24 (the glob import of the prelude binds nothing that conflicts) -/
def emitRand (f : EmitFeatures) : List I :=
  if f.rand then
    [.binds false [.type] (str!"SampleBorrow") (.foreign (str!"rand::distributions::uniform::SampleBorrow")),
     .binds false [.type] (str!"SampleUniform") (.foreign (str!"rand::distributions::uniform::SampleUniform")),
     .binds false [.type] (str!"UniformFloat") (.foreign (str!"rand::distributions::uniform::UniformFloat")),
     .binds false [.type] (str!"UniformSampler") (.foreign (str!"rand::distributions::uniform::UniformSampler")),
     .binds true [.type, .value] (str!"UniformQuantity") (.helper (str!"UniformQuantity"))]
  else []

/-- codegen/mod.rs:55-75 `code_gen`: everything at the top level, in order. -/
def emitRoot (f : EmitFeatures) (d : Defs E M) : List I :=
  emitDimension d ++ emitQuantity d ++ emitDimensionsMod ++ emitUnitsAndConstants ++ emitFloatTraits f ++ emitSerde f ++ emitRand f

/-- The names used at the top level (quantity_type.rs, num_traits, debug_trait.rs, serde.rs:31-60, rand.rs:24-66). -/
def rootRefs (f : EmitFeatures) (d : Defs E M) : List R :=
  [⟨.type, d.dimensionType, .dimensionType⟩, ⟨.type, d.quantityType, .quantityType⟩, ⟨.value, d.quantityType, .quantityType⟩,
   ⟨.type, str!"Magnitude", .magnitude⟩, ⟨.type, str!"Exponent", .exponent⟩] ++
  (if f.serde then
    [⟨.type, str!"PhantomData", .foreign (str!"core::marker::PhantomData")⟩,
     ⟨.type, str!"SplitWhitespace", .foreign (str!"std::str::SplitWhitespace")⟩, ⟨.type, str!"de", .foreign (str!"serde::de")⟩,
     ⟨.type, str!"QuantityVisitor", .helper (str!"QuantityVisitor")⟩,
     ⟨.value, str!"get_quantity_if_dimensions_match", .helper (str!"get_quantity_if_dimensions_match")⟩,
     ⟨.value, str!"read_unit_str", .helper (str!"read_unit_str")⟩,
     ⟨.value, str!"read_single_unit_str", .helper (str!"read_single_unit_str")⟩]
   else []) ++
  (if f.rand then
    [⟨.type, str!"SampleBorrow", .foreign (str!"rand::distributions::uniform::SampleBorrow")⟩,
     ⟨.type, str!"SampleUniform", .foreign (str!"rand::distributions::uniform::SampleUniform")⟩,
     ⟨.type, str!"UniformFloat", .foreign (str!"rand::distributions::uniform::UniformFloat")⟩,
     ⟨.type, str!"UniformSampler", .foreign (str!"rand::distributions::uniform::UniformSampler")⟩,
     ⟨.type, str!"UniformQuantity", .helper (str!"UniformQuantity")⟩, ⟨.value, str!"UniformQuantity", .helper (str!"UniformQuantity")⟩]
   else [])

/-- dimensions.rs:28-61 `gen_dimensions`, `gen_dimension_definitions`: `mod dimensions`. The aliases use both types by name. -/
def dimensionsModule (d : Defs E M) : ScopeModule (Entity E M) :=
  ⟨str!"dimensions",
   [.useSuper d.dimensionType, .useSuper d.quantityType, .useSuper (str!"Exponent")] ++
     d.dimensions.map fun x => .binds true [.type] x.name (.alias (dimensionExpr d.baseDimensions x.dims)),
   [⟨.type, d.dimensionType, .dimensionType⟩, ⟨.type, d.quantityType, .quantityType⟩, ⟨.type, str!"Exponent", .exponent⟩]⟩

/-- units_and_constants.rs:36-41 and unit_type.rs `gen_unit_type`, `gen_unit_trait_impls`: `mod unit_type`. `Dimension` and `Quantity`
are written out in the code generator; only the two struct definitions use `#dimension_type`. -/
def unitTypeModule (d : Defs E M) : ScopeModule (Entity E M) :=
  ⟨str!"unit_type",
   [.useSuper (str!"Dimension"), .useSuper (str!"Magnitude"), .useSuper (str!"Quantity"),
    .binds true [.type, .value] (str!"Unit") .unitType,
    .binds true [.type, .value] (str!"RuntimeUnit") .runtimeUnit,
    .binds false [.type] (str!"Mul") (.foreign (str!"core::ops::Mul")),
    .binds false [.type] (str!"Div") (.foreign (str!"core::ops::Div"))],
   [⟨.type, d.dimensionType, .dimensionType⟩, ⟨.type, str!"Dimension", .dimensionType⟩, ⟨.type, str!"Magnitude", .magnitude⟩,
    ⟨.type, str!"Quantity", .quantityType⟩, ⟨.value, str!"Quantity", .quantityType⟩,
    ⟨.type, str!"Unit", .unitType⟩, ⟨.type, str!"RuntimeUnit", .runtimeUnit⟩, ⟨.value, str!"RuntimeUnit", .runtimeUnit⟩,
    ⟨.type, str!"Mul", .foreign (str!"core::ops::Mul")⟩, ⟨.type, str!"Div", .foreign (str!"core::ops::Div")⟩]⟩

/-- The imports at the head of `mod units` and `mod constants`, units_and_constants.rs:47-50, 55-58. -/
def unitImports : List I :=
  [.useSuper (str!"Magnitude"), .useSuper (str!"Unit"), .useSuper (str!"Dimension"), .useSuper (str!"Exponent")]

/-- The names the constants use, units_and_constants.rs:64-93 (`get_dimension_expr` uses `#dimension_type`, and `Exponent` with
rational exponents). They are listed only if there is a constant. -/
def unitRefs (f : EmitFeatures) (d : Defs E M) (isEmpty : Bool) : List R :=
  if isEmpty then [] else
  [⟨.type, str!"Unit", .unitType⟩, ⟨.value, str!"Unit", .unitType⟩, ⟨.type, d.dimensionType, .dimensionType⟩,
   ⟨.type, str!"Magnitude", .magnitude⟩] ++
  if f.rational then [⟨.type, str!"Exponent", .exponent⟩] else []

/-- units_and_constants.rs:11-21, 44-52, 64-72 `gen_unit_def`: `mod units` -/
def unitsModule (f : EmitFeatures) (d : Defs E M) : ScopeModule (Entity E M) :=
  ⟨str!"units",
   unitImports ++ d.units.map fun x => .binds true [.value] x.name (.unit (dimensionExpr d.baseDimensions x.dims) x.mag),
   unitRefs f d d.units.isEmpty⟩

/-- units_and_constants.rs:22-32, 53-60, 74-82 `gen_constant_def`: `mod constants` -/
def constantsModule (f : EmitFeatures) (d : Defs E M) : ScopeModule (Entity E M) :=
  ⟨str!"constants",
   unitImports ++ d.constants.map fun x => .binds true [.value] x.name (.unit (dimensionExpr d.baseDimensions x.dims) x.mag),
   unitRefs f d d.constants.isEmpty⟩

/-- codegen/mod.rs:55-75 `code_gen` -/
def emit (f : EmitFeatures) (d : Defs E M) : ScopeTree (Entity E M) :=
  ⟨⟨[], emitRoot f d, rootRefs f d⟩, [dimensionsModule d, unitTypeModule d, unitsModule f d, constantsModule f d],
   [d.baseDimensions]⟩

end
end Diman
