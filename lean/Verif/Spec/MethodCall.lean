import Verif.Spec.Coherence
import Verif.Spec.Features
/-!
# Method calls on quantities (C68)
Rust's rule for `x.m(..)`: the type of `x` is dereferenced step by step, and the first type on the way that has a method `m` is the one whose method is called
(methods of traits are left out: no trait of the prelude that quantities implement has a method of one of the names concerned).
-/
namespace Diman
section
variable {E : Type} [FieldOps E]

/-- What other crates bring: which of their types have which methods, and what their types dereference to. -/
structure Foreigners (E : Type) where
  method : RTy E → Str → Prop
  deref : RTy E → RTy E → Prop

/-- Other crates say nothing about the types of a unit system. -/
def Foreigners.Fair (w : Foreigners E) : Prop := (∀ t m, w.method t m → t.Foreign) ∧ ∀ t u, w.deref t u → t.Foreign

/-- `*x` has type `u` for `x` of type `t`. -/
inductive DerefStep (w : Foreigners E) (impls : List ImplBlock) (n : Nat) : RTy E → RTy E → Prop
  | ref (m : Bool) (t : RTy E) : DerefStep w impls n (.ref m t) t
  | impl (i : ImplBlock) (σ : GVar → RTy E) : i ∈ impls → i.trait = some (.deref, []) → DerefStep w impls n (i.self.inst n σ) (σ derefTarget)
  | foreign (t u : RTy E) : w.deref t u → DerefStep w impls n t u

/-- The type `t` itself has a method `m`. -/
def HasMethod (w : Foreigners E) (impls : List ImplBlock) (n : Nat) (t : RTy E) (m : Str) : Prop :=
  (∃ i ∈ impls, i.trait = none ∧ m ∈ i.methods ∧ ∃ σ, i.self.inst n σ = t) ∨ w.method t m

/-- `x.m(..)` with `x` of type `t` calls the method of the type `r`. -/
inductive Calls (w : Foreigners E) (impls : List ImplBlock) (n : Nat) (m : Str) : RTy E → RTy E → Prop
  | here (t : RTy E) : HasMethod w impls n t m → Calls w impls n m t t
  | step (t u r : RTy E) : ¬ HasMethod w impls n t m → DerefStep w impls n t u → Calls w impls n m u r → Calls w impls n m t r

/-- The type `Quantity<s, d>` of a unit system. -/
def RTy.quantity (sys : Nat) (s : RTy E) (d : DimVal E) : RTy E := .app (.app (.head (.loc sys .quantity)) s) (.dim d)

/-- The type behind references, e.g. `&&mut T`. -/
def RTy.refs (t : RTy E) : List Bool → RTy E
  | [] => t
  | m :: ms => .ref m (t.refs ms)

/-- The methods of all quantities, as documented: reading the number with the explicitly unchecked functions, or in a unit. -/
def commonMethods : List Str := [str!"value_unchecked", str!"value_unchecked_ref", str!"value_in"]
/-- Those of quantities of floats. -/
def floatMethods : List Str :=
  [str!"squared", str!"cubed", str!"powi", str!"min", str!"max", str!"clamp", str!"is_positive", str!"is_positive_or_zero", str!"is_negative",
   str!"is_negative_or_zero", str!"is_nan"]
/-- Those of quantities of floats that need mathematical functions. -/
def rootMethods : List Str := [str!"sqrt", str!"cbrt"]
/-- Those of quantities of vectors. -/
def vectorMethods : List Str :=
  [str!"x", str!"y", str!"set_x", str!"set_y", str!"min", str!"max", str!"length", str!"distance", str!"distance_squared", str!"normalize", str!"dot"]
def vector3Methods : List Str := [str!"z", str!"set_z"]
/-- Those of dimensionless quantities of floats. -/
def functionMethods : List Str :=
  [str!"log2", str!"ln", str!"log10", str!"exp", str!"exp2", str!"ceil", str!"floor", str!"sin", str!"cos", str!"tan", str!"asin", str!"acos",
   str!"atan", str!"sinh", str!"cosh", str!"tanh", str!"asinh", str!"acosh", str!"atanh", str!"exp_m1", str!"ln_1p"]

/-- The methods of `Quantity<s, d>` for any dimension `d`, given the features. -/
def QuantityMethod (on : Feature → Bool) (s : RTy E) (m : Str) : Prop :=
  m ∈ commonMethods ∨ ∃ st : Storage, s = .head (.storage st) ∧ on st.feature = true ∧
    (m = str!"abs" ∨
     (st.isFloat = true ∧ (m ∈ floatMethods ∨ (m ∈ rootMethods ∧ hasMath on = true))) ∨
     (st.isFloat = false ∧ (m ∈ vectorMethods ∨ (m ∈ vector3Methods ∧ st.numDims = 3))))

/-- Those of dimensionless quantities. -/
def DimensionlessMethod (on : Feature → Bool) (s : RTy E) (m : Str) : Prop :=
  QuantityMethod on s m ∨ m = str!"value" ∨ m = str!"value_ref" ∨
    (m ∈ functionMethods ∧ hasMath on = true ∧ ∃ st : Storage, s = .head (.storage st) ∧ on st.feature = true ∧ st.isFloat = true)

/-- The name of a function that is called as `q.name(..)` on a quantity `q`; `none` for all others. -/
def Fn.methodName : Fn E → Option Str
  | .value => some (str!"value")
  | .valueRef => some (str!"value_ref")
  | .valueUnchecked => some (str!"value_unchecked")
  | .valueUncheckedRef => some (str!"value_unchecked_ref")
  | .valueIn => some (str!"value_in")
  | .abs => some (str!"abs")
  | .dimensionless f => some f.rustName
  | .squared => some (str!"squared")
  | .cubed => some (str!"cubed")
  | .powi _ => some (str!"powi")
  | .sqrt => some (str!"sqrt")
  | .cbrt => some (str!"cbrt")
  | .min => some (str!"min")
  | .max => some (str!"max")
  | .clamp => some (str!"clamp")
  | .isPositive => some (str!"is_positive")
  | .isPositiveOrZero => some (str!"is_positive_or_zero")
  | .isNegative => some (str!"is_negative")
  | .isNegativeOrZero => some (str!"is_negative_or_zero")
  | .isNan => some (str!"is_nan")
  | .axis .x => some (str!"x")
  | .axis .y => some (str!"y")
  | .axis .z => some (str!"z")
  | .setAxis .x => some (str!"set_x")
  | .setAxis .y => some (str!"set_y")
  | .setAxis .z => some (str!"set_z")
  | .length => some (str!"length")
  | .distance => some (str!"distance")
  | .distanceSquared => some (str!"distance_squared")
  | .normalize => some (str!"normalize")
  | .dot => some (str!"dot")
  | _ => none
end
end Diman
