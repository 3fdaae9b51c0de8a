import Verif.Model.DimType
/-!
# Storage types
Models crates/diman_unit_system/src/codegen/storage_types.rs. Which of the types are available depends on the enabled cargo features,
so the model takes the list of enabled ones as a parameter.
-/
namespace Diman

/-- The two floating-point types (storage_types.rs:102-126). -/
inductive FloatTy where
  | f32 | f64
deriving DecidableEq, Repr

/-- storage_types.rs:68-100, 128-135: every float and vector type the code can be generated for. -/
inductive Storage where
  | f32 | f64 | vec2 | dvec2 | vec3 | dvec3
deriving DecidableEq, Repr

namespace Storage
/-- storage_types.rs:68-100 field `float_type` (a float is its own base, 42-50 `base_storage`). -/
def base : Storage → FloatTy
  | .f32 | .vec2 | .vec3 => .f32
  | .f64 | .dvec2 | .dvec3 => .f64
/-- storage_types.rs:68-100 field `num_dims`; a float has one component. -/
def numDims : Storage → Nat
  | .f32 | .f64 => 1
  | .vec2 | .dvec2 => 2
  | .vec3 | .dvec3 => 3
/-- Is it one of `float_types()` (storage_types.rs:128-135)? -/
def isFloat : Storage → Bool
  | .f32 | .f64 => true
  | _ => false
/-- Is it one of `vector_types()` (storage_types.rs:68-100)? -/
def isVector (s : Storage) : Bool := !s.isFloat
end Storage

/-- The float type as a storage type. -/
def FloatTy.storage : FloatTy → Storage
  | .f32 => .f32
  | .f64 => .f64

end Diman
