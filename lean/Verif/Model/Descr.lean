import Verif.Model.Prims
/-!
# MPI datatypes, HDF5 type descriptors, random quantities
Models crates/diman_unit_system/src/codegen/mpi.rs, hdf5.rs and rand.rs. The dimension `D` of the generated impls does not occur in
their bodies; the model takes it as an argument and ignores it in the same way.
-/
namespace Diman

/-- storage_types.rs:102-126 field `mpi_type`, and `Equivalence for f32 / f64` of the mpi crate: the system datatypes used. -/
inductive MpiType where
  | float | double
  /-- `UserDatatype::contiguous(count, &element)` -/
  | contiguous (count : Int) (element : MpiType)
deriving DecidableEq, Repr

/-- storage_types.rs:109, 122: `::mpi::ffi::RSMPI_FLOAT`, `RSMPI_DOUBLE`. -/
def FloatTy.mpiType : FloatTy → MpiType
  | .f32 => .float
  | .f64 => .double

/-- `<f32>::equivalent_datatype()`, `<f64>::equivalent_datatype()` (mpi crate, trusted): the C types `float` and `double`. -/
def FloatTy.equivalentDatatype : FloatTy → MpiType
  | .f32 => .float
  | .f64 => .double

/-- mpi.rs:22-38 (`mpi_float_impl`), 47-69 (`mpi_vector_impl`): `equivalent_datatype()` of `Quantity<S, D>`. The vector's datatype is
created once and shared by all dimensions (a `static`). -/
def mpiDatatype {E : Type} (s : Storage) (_d : DimVal E) : MpiType :=
  if s.isFloat then s.base.mpiType else .contiguous (Int.ofNat s.numDims) s.base.equivalentDatatype

/-- `hdf5::types::FloatSize`. -/
inductive FloatSize where
  | u4 | u8
deriving DecidableEq, Repr

/-- The part of `hdf5::types::TypeDescriptor` in use. -/
inductive H5Type where
  | float (size : FloatSize)
  | fixedArray (element : H5Type) (count : Nat)
deriving DecidableEq, Repr

/-- storage_types.rs:111, 124 field `hdf5_type`. -/
def FloatTy.hdf5Type : FloatTy → FloatSize
  | .f32 => .u4
  | .f64 => .u8

/-- hdf5.rs:20-32 (`hdf5_float_impl`), 41-57 (`hdf5_vector_impl`): `type_descriptor()` of `Quantity<S, D>`. -/
def h5Descriptor {E : Type} (s : Storage) (_d : DimVal E) : H5Type :=
  if s.isFloat then .float s.base.hdf5Type else .fixedArray (.float s.base.hdf5Type) s.numDims

/-! ## rand.rs -/

/-- rand's `UniformFloat<f32>`, `UniformFloat<f64>` (a parameter of the model): `U` is the prepared distribution, `G` the generator
state; a panic (for example for an empty range) is `none`. -/
structure UniformFloat (K U G : Type) where
  new : FloatTy → K → K → Option U
  newInclusive : FloatTy → K → K → Option U
  sample : FloatTy → U → G → K × G

/-- rand.rs:24: `struct UniformQuantity<S, const D>(UniformFloat<S>)`. -/
structure UniformQuantity (U : Type) where
  inner : U

section
variable {K U G M : Type} (R : UniformFloat K U G)

/-- The field `.0` of a float quantity. -/
def floatField : Val K M → Option K
  | .quantity [x] => some x
  | _ => none

/-- rand.rs:37-46 `UniformSampler::new`. -/
def UniformQuantity.new (t : FloatTy) (low high : Val K M) : Option (UniformQuantity U) := do
  return ⟨← R.new t (← floatField low) (← floatField high)⟩

/-- rand.rs:47-56 `UniformSampler::new_inclusive`. -/
def UniformQuantity.newInclusive (t : FloatTy) (low high : Val K M) : Option (UniformQuantity U) := do
  return ⟨← R.newInclusive t (← floatField low) (← floatField high)⟩

/-- rand.rs:58-60 `UniformSampler::sample`. -/
def UniformQuantity.sample {M : Type} (t : FloatTy) (u : UniformQuantity U) (g : G) : Val K M × G :=
  let (x, g') := R.sample t u.inner g
  (.quantity [x], g')

/-- `Rng::gen_range(low..high)` for a type with this sampler (rand.rs:63-65 `SampleUniform`): rand's default method `sample_single`
prepares the distribution and samples it once. -/
def genRange (t : FloatTy) (low high : Val K M) (g : G) : Option (Val K M × G) := do
  let u ← UniformQuantity.new R t low high
  return u.sample R t g

/-- `Rng::gen_range(low..=high)`: default method `sample_single_inclusive`. -/
def genRangeInclusive (t : FloatTy) (low high : Val K M) (g : G) : Option (Val K M × G) := do
  let u ← UniformQuantity.newInclusive R t low high
  return u.sample R t g

/-- `Uniform::new(low, high).sample_iter(rng).take(n)`: one prepared distribution sampled repeatedly. -/
def UniformQuantity.sampleMany (t : FloatTy) (u : UniformQuantity U) : Nat → G → List (Val K M)
  | 0, _ => []
  | n + 1, g => (u.sample (M := M) R t g).1 :: u.sampleMany t n (u.sample (M := M) R t g).2
end

end Diman
