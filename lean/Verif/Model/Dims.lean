import Verif.Model.Expr
/-!
# Dimensions of expressions
Models crates/diman_unit_system/src/dimension_math.rs. `HashMap<BaseDimension, Exponent>` is an association list; the code only
ever inserts absent keys, so keys stay distinct (proved). Iteration order is that of the list; results are shown not to depend
on it (C40).
-/
namespace Diman

/-- dimension_math.rs:11-14 `struct BaseDimensions { fields: HashMap<BaseDimension, Exponent> }` -/
abbrev Dims (E : Type) := List (Str × E)

namespace Dims
variable {E : Type} [Exponent E]

/-- dimension_math.rs:58-60 `get` (`HashMap::get`) -/
def get : Dims E → Str → Option E
  | [], _ => none
  | (k, v) :: m, k' => if k = k' then some v else get m k'

/-- `HashMap::get_mut` + `+=`, or `insert`: dimension_math.rs:70-76, the loop body of `mul`. -/
def addEntry (fields : Dims E) (k : Str) (v : E) : Option (Dims E) :=
  match fields with
  | [] => some [(k, v)]
  | (k', v') :: m =>
    if k' = k then do return (k', ← Exponent.add v' v) :: m
    else do return (k', v') :: (← addEntry m k v)

/-- dimension_math.rs:63-79 `impl Mul for BaseDimensions`: add every entry of the right side into the left. -/
def mul (a : Dims E) : Dims E → Option (Dims E)
  | [] => some a
  | (k, v) :: b => do mul (← addEntry a k v) b

/-- dimension_math.rs:81-88 `inv`: negate every exponent. -/
def inv : Dims E → Option (Dims E)
  | [] => some []
  | (k, v) :: m => do return (k, ← Exponent.neg v) :: (← inv m)

/-- dimension_math.rs:90-97 `impl Div for BaseDimensions` -/
def div (a b : Dims E) : Option (Dims E) := do mul a (← inv b)

/-- dimension_math.rs:99-109 `MulDiv::pow`: multiply every exponent. -/
def pow (p : E) : Dims E → Option (Dims E)
  | [] => some []
  | (k, v) :: m => do return (k, ← Exponent.mul v p) :: (← pow p m)

/-- dimension_math.rs:22-32 `PartialEq::eq`: every entry of `self` is present with the same value in `other` — entries of
`other` absent from `self` are *not* looked at. -/
def eq (self other : Dims E) : Bool :=
  self.all fun kv => match other.get kv.1 with
    | some v => decide (kv.2 = v)
    | none => false

end Dims

/-- dimension_math.rs:16-20 `struct DimensionsAndMagnitude` -/
structure DM (E M : Type) where
  dims : Dims E
  mag : M

namespace DM
variable {E M : Type} [Exponent E] [MagOps E M]

/-- dimension_math.rs:112-117 `DimensionsAndMagnitude::magnitude` -/
def magnitude (m : M) : DM E M := ⟨[], m⟩

/-- dimension_math.rs:119-124 `DimensionsAndMagnitude::dimensions` -/
def dimensions (d : Dims E) : DM E M := ⟨d, MagOps.one E⟩

/-- dimension_math.rs:127-156 `Mul`, `Div`, `MulDiv::pow` for `DimensionsAndMagnitude` -/
instance : MulDiv E (DM E M) where
  mul a b := do return ⟨← a.dims.mul b.dims, MagOps.mul E a.mag b.mag⟩
  div a b := do return ⟨← a.dims.div b.dims, MagOps.div E a.mag b.mag⟩
  pow a p := do return ⟨← a.dims.pow p, MagOps.pow a.mag p⟩

end DM
end Diman
