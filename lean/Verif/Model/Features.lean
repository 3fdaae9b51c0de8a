import Verif.Model.Api
/-!
# Cargo features
Models the `[features]` tables of Cargo.toml and crates/diman_unit_system/Cargo.toml and every `cfg(feature = …)` of the macro crate that
decides which functions and operators are generated.
-/
namespace Diman

/-- Cargo.toml:22-39: the features of the crate `diman`. -/
inductive Feature where
  | numTraitsLibm | glam | glamVec2 | glamDvec2 | glamVec3 | glamDvec3 | f32 | f64 | std | si | rationalDimensions
  | mpi | hdf5 | rand | serde | default
deriving DecidableEq, Repr

/-- Cargo.toml:22-39: the features of `diman` that a feature of `diman` turns on (the `dep:` entries and the entries
`diman_unit_system/…`, `diman_lib/…` turn on the dependency and the feature of the same name there: a feature of `diman` and its namesake
in the other two crates are one thing in the model). -/
def Feature.implies : Feature → List Feature
  | .glamVec2 => [.glam, .f32]
  | .glamDvec2 => [.glam, .f64]
  | .glamVec3 => [.glam, .f32]
  | .glamDvec3 => [.glam, .f64]
  | .default => [.f32, .f64, .si, .std]
  | _ => []

/-- The features that are on after Cargo has resolved the requested ones: the requested ones and what they imply, directly or indirectly
(the table has no chains longer than one link: `C55_resolution`). -/
def enabled (requested : List Feature) (f : Feature) : Bool :=
  requested.any fun r => decide (r = f) || r.implies.any fun g => decide (g = f) || g.implies.contains f

section
variable (on : Feature → Bool)

/-- storage_types.rs:128-135 `float_types` -/
def floatTypes : List Storage :=
  (if on .f32 then [.f32] else []) ++ (if on .f64 then [.f64] else [])

/-- storage_types.rs:68-100 `vector_types` -/
def vectorTypes : List Storage :=
  (if on .glamVec2 then [.vec2] else []) ++ (if on .glamDvec2 then [.dvec2] else []) ++
    (if on .glamVec3 then [.vec3] else []) ++ (if on .glamDvec3 then [.dvec3] else [])

/-- storage_types.rs:53-62 `storage_types` -/
def storageTypes : List Storage := floatTypes on ++ vectorTypes on

/-- The condition of float_methods.rs:83, 101 (and of `diman_lib`'s module `ratio`, lib.rs:7). -/
def hasMath : Bool := on .std || on .numTraitsLibm

variable {E : Type}

/-- Is the function generated for these argument types? Functions of `impl` blocks that are generic in the storage type `S` always are
(quantity_type.rs:20-75, num_traits/mod.rs, unit_type.rs:23-165); the others are generated once for every storage type that is switched on.
The block is found by the type of the receiver, for associated functions by the type in the path. -/
def Fn.generated : Fn E → List (Ty E) → Bool
  -- generic in `S`
  | .value, _ | .valueRef, _ | .deref, _ | .valueUnchecked, _ | .valueUncheckedRef, _ | .newUnchecked _, _ | .valueIn, _
  | .default _ _, _ | .from, _ | .neg, _ | .sum _ _, _ | .unitNew, _ => true
  -- generic_methods.rs:8-12: all storage types
  | .abs, .quantity s _ :: _ => (storageTypes on).contains s
  -- float_methods.rs:40-48, 80-87: float types, only with mathematical functions
  | .dimensionless _, .quantity s _ :: _ => hasMath on && (floatTypes on).contains s
  -- float_methods.rs:101-114
  | .sqrt, .quantity s _ :: _ | .cbrt, .quantity s _ :: _ => hasMath on && (floatTypes on).contains s
  -- float_methods.rs:89-94, 116-178
  | .squared, .quantity s _ :: _ | .cubed, .quantity s _ :: _ | .powi _, .quantity s _ :: _ | .clamp, .quantity s _ :: _
  | .isPositive, .quantity s _ :: _ | .isPositiveOrZero, .quantity s _ :: _ | .isNegative, .quantity s _ :: _
  | .isNegativeOrZero, .quantity s _ :: _ | .isNan, .quantity s _ :: _ => (floatTypes on).contains s
  -- float_methods.rs:142-156 and vector_methods.rs:105-115
  | .min, .quantity s _ :: _ | .max, .quantity s _ :: _ => (floatTypes on).contains s || (vectorTypes on).contains s
  | .zero s _, _ => (floatTypes on).contains s || (vectorTypes on).contains s
  -- vector_methods.rs:6-14
  | .vnew s, _ | .newAxis _ s, _ => (vectorTypes on).contains s
  | .axis _, .quantity s _ :: _ | .setAxis _, .quantity s _ :: _ | .length, .quantity s _ :: _ | .distance, .quantity s _ :: _
  | .distanceSquared, .quantity s _ :: _ | .normalize, .quantity s _ :: _ | .dot, .quantity s _ :: _ => (vectorTypes on).contains s
  -- unit_type.rs:180-188: with a bare number on one side per storage type, otherwise generic in `S`
  | .unitMul, [.bare s, _] | .unitMul, [_, .bare s] | .unitDiv, [.bare s, _] | .unitDiv, [_, .bare s] => (storageTypes on).contains s
  | .unitMul, _ | .unitDiv, _ => true
  | _, _ => false

/-- The type of a call in a build with these features. -/
def Fn.sigIn [FieldOps E] [DecidableEq E] (n : Nat) (f : Fn E) (args : List (Ty E)) : Option (Ty E) :=
  if f.generated on args then f.sig n args else none

/-- src/lib.rs:409-416: the combination the crate refuses. -/
def refused : Bool := on .rationalDimensions && !(hasMath on)

/-- What the generated code takes from the standard library or its prelude and is not in `core`: serde.rs:26, 41, 64, 113, 187, 219, 270
(`format!`, `Vec` and `String`'s `replace` are in `std`'s prelude only) and hdf5.rs:51 (`Box`). -/
def stdNames : List Str :=
  (if on .serde then [str!"std::str::SplitWhitespace", str!"format!", str!"Vec"] ++
    (if (floatTypes on ++ vectorTypes on).isEmpty then [] else [str!"std::fmt::Formatter"]) else []) ++
  (if on .hdf5 && !(vectorTypes on).isEmpty then [str!"Box"] else [])

end
end Diman
