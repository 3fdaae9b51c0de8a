import Verif.Model.Features
import Mathlib.Logic.Relation
/-!
# Specification of the Cargo features (C55)
-/
namespace Diman

/-- The documentation (src/lib.rs:46-56): the feature of a storage type. -/
def Storage.feature : Storage → Feature
  | .f32 => .f32
  | .f64 => .f64
  | .vec2 => .glamVec2
  | .dvec2 => .glamDvec2
  | .vec3 => .glamVec3
  | .dvec3 => .glamDvec3

/-- Requesting `requested` turns on `f`: it is requested itself, or some requested feature leads to it through the `[features]` table. -/
def TurnedOn (requested : List Feature) (f : Feature) : Prop :=
  ∃ r ∈ requested, Relation.ReflTransGen (fun a b => b ∈ a.implies) r f

/-- The storage type of a type, if any, is switched on. -/
def Ty.On {E : Type} (on : Feature → Bool) : Ty E → Prop
  | .quantity s _ => on s.feature = true
  | .bare s => on s.feature = true
  | _ => True

/-- The storage type of an outcome, if any, is switched on. -/
def OpOut.On {E : Type} (on : Feature → Bool) : OpOut E → Prop
  | .value t => t.On on
  | _ => True

/-- The storage type that a call names itself (`Quantity::<S, D>::zero()`), if any, is switched on. -/
def Fn.NamedOn {E : Type} (on : Feature → Bool) : Fn E → Prop
  | .default s _ | .sum s _ | .zero s _ | .vnew s | .newAxis _ s => on s.feature = true
  | _ => True

/-- The functions that need mathematical functions from outside `core`: roots, and the dimensionless `ln`, `sin`, …. -/
def Fn.needsMath {E : Type} : Fn E → Bool
  | .sqrt | .cbrt | .dimensionless _ => true
  | _ => false

end Diman
