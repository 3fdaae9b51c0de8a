import Verif.Model.Descr
/-! What the descriptors mean to MPI and HDF5, and how the storage types lie in memory. Independent of the code generator. -/
namespace Diman

/-- Size in bytes of a float (`size_of::<f32>()`, `size_of::<f64>()`). -/
def FloatTy.bytes : FloatTy → Nat
  | .f32 => 4
  | .f64 => 8

/-- The elements of a storage type: f32, f64, glam's `Vec2`/`DVec2`/`Vec3`/`DVec3` (`#[repr(C)]` structs of two or three floats). -/
def Storage.elements : Storage → List FloatTy
  | .f32 => [.f32]
  | .f64 => [.f64]
  | .vec2 => [.f32, .f32]
  | .dvec2 => [.f64, .f64]
  | .vec3 => [.f32, .f32, .f32]
  | .dvec3 => [.f64, .f64, .f64]

/-- Size in bytes. -/
def size (l : List FloatTy) : Nat := (l.map FloatTy.bytes).sum

/-- MPI's type map, without offsets: `MPI_FLOAT` is C's float, `MPI_DOUBLE` is C's double, `MPI_Type_contiguous` repeats (a negative count
is an error). -/
def MpiType.typeMap : MpiType → Option (List FloatTy)
  | .float => some [.f32]
  | .double => some [.f64]
  | .contiguous n e => if n < 0 then none else e.typeMap.map fun l => (List.replicate n.toNat l).flatten

/-- The bytes of a buffer of values, element by element. -/
def image {K : Type} (enc : FloatTy → K → List UInt8) : List FloatTy → List K → List UInt8
  | t :: ts, x :: xs => enc t x ++ image enc ts xs
  | _, _ => []

/-- Reading the elements of a type map from bytes. -/
def readElements {K : Type} (dec : FloatTy → List UInt8 → K) : List FloatTy → List UInt8 → List K
  | [], _ => []
  | t :: ts, b => dec t (b.take t.bytes) :: readElements dec ts (b.drop t.bytes)

/-- A value as an HDF5 reader sees it. -/
inductive H5Value (K : Type) where
  | float (x : K)
  | array (l : List (H5Value K))

/-- The IEEE float type of a HDF5 float of that size. -/
def FloatSize.type : FloatSize → FloatTy
  | .u4 => .f32
  | .u8 => .f64

/-- Size in bytes of a value of the type. -/
def H5Type.bytes : H5Type → Nat
  | .float s => s.type.bytes
  | .fixedArray e n => n * e.bytes

/-- Reading a value of the type from bytes. -/
def H5Type.read {K : Type} (dec : FloatTy → List UInt8 → K) : H5Type → List UInt8 → H5Value K
  | .float s, b => .float (dec s.type b)
  | .fixedArray e n, b => .array ((List.range n).map fun i => e.read dec ((b.drop (i * e.bytes)).take e.bytes))

/-- Encoding and decoding of floats in memory. -/
structure Encoding {K : Type} (enc : FloatTy → K → List UInt8) (dec : FloatTy → List UInt8 → K) : Prop where
  size : ∀ t x, (enc t x).length = t.bytes
  dec_enc : ∀ t x, dec t (enc t x) = x

/-- What a uniform float sampler promises: a half-open range excludes its upper end, an inclusive one need not. `partialCmp` is the
comparison of floats. -/
structure UniformFloat.Sound {K U G : Type} (M : Type) [Prims K M] (R : UniformFloat K U G) : Prop where
  half_open : ∀ t low high u, R.new t low high = some u → ∀ g, let x := (R.sample t u g).1
    (partialCmp M t low x = some .lt ∨ partialCmp M t low x = some .eq) ∧ partialCmp M t x high = some .lt
  inclusive : ∀ t low high u, R.newInclusive t low high = some u → ∀ g, let x := (R.sample t u g).1
    (partialCmp M t low x = some .lt ∨ partialCmp M t low x = some .eq) ∧
    (partialCmp M t x high = some .lt ∨ partialCmp M t x high = some .eq)

end Diman
