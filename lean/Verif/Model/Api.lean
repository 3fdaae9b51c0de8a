import Verif.Model.Prims
/-!
# The generated functions other than operators between quantities and numbers
Models codegen/quantity_type.rs, generic_methods.rs, float_methods.rs, vector_methods.rs, unit_type.rs and the `Sum`, `Neg`, `From`
impls of num_traits/mod.rs. For each function: its signature (`Fn.sig`: the type of the result for given argument types, `none` if
the call does not type-check) and what it computes (`Fn.run`). `n` is the number of base dimensions of the unit system.
References are not distinguished here: `&self` and `self` methods are both callable on a value.
-/
namespace Diman

/-- Coordinate axes of glam vectors. -/
inductive Axis where
  | x | y | z
deriving DecidableEq, Repr

/-- Position of the component of an axis. -/
def Axis.idx : Axis → Nat
  | .x => 0
  | .y => 1
  | .z => 2

/-- All generated functions. A parameter is what a call fixes by type annotation (`Quantity::<S, D>::zero()`, `powi::<N>()`). -/
inductive Fn (E : Type) where
  /-- quantity_type.rs:27-29 -/
  | value
  /-- quantity_type.rs:32-34 -/
  | valueRef
  /-- quantity_type.rs:69-75 -/
  | deref
  /-- quantity_type.rs:41-43 -/
  | valueUnchecked
  /-- quantity_type.rs:48-50 -/
  | valueUncheckedRef
  /-- quantity_type.rs:55-57 -/
  | newUnchecked (d : DimVal E)
  /-- quantity_type.rs:60-67 -/
  | valueIn
  /-- quantity_type.rs:14 `#[derive(Default)]` -/
  | default (s : Storage) (d : DimVal E)
  /-- num_traits/mod.rs:55-68 -/
  | from
  /-- num_traits/mod.rs:41-53 -/
  | neg
  /-- num_traits/mod.rs:22-39 -/
  | sum (s : Storage) (d : DimVal E)
  /-- generic_methods.rs:8-27 -/
  | abs
  /-- float_methods.rs:23-78 -/
  | dimensionless (f : FloatFn)
  /-- float_methods.rs:118-123 -/
  | squared
  /-- float_methods.rs:125-130 -/
  | cubed
  /-- float_methods.rs:133-138 -/
  | powi (i : Int)
  /-- float_methods.rs:103-106 -/
  | sqrt
  /-- float_methods.rs:108-111 -/
  | cbrt
  /-- float_methods.rs:142-144, vector_methods.rs:109-111 -/
  | min
  /-- float_methods.rs:146-148, vector_methods.rs:113-115 -/
  | max
  /-- float_methods.rs:150-152 -/
  | clamp
  /-- float_methods.rs:154-156, vector_methods.rs:105-107 -/
  | zero (s : Storage) (d : DimVal E)
  /-- float_methods.rs:158-160 -/
  | isPositive
  /-- float_methods.rs:162-164 -/
  | isPositiveOrZero
  /-- float_methods.rs:166-168 -/
  | isNegative
  /-- float_methods.rs:170-172 -/
  | isNegativeOrZero
  /-- float_methods.rs:174-176 -/
  | isNan
  /-- vector_methods.rs:51-70 -/
  | vnew (s : Storage)
  /-- vector_methods.rs:24-32, 75-81 -/
  | newAxis (a : Axis) (s : Storage)
  /-- vector_methods.rs:33-41, 85-91 -/
  | axis (a : Axis)
  /-- vector_methods.rs:42-50, 95-101 -/
  | setAxis (a : Axis)
  /-- vector_methods.rs:117-119 -/
  | length
  /-- vector_methods.rs:121-123 -/
  | distance
  /-- vector_methods.rs:125-133 -/
  | distanceSquared
  /-- vector_methods.rs:135-137 -/
  | normalize
  /-- vector_methods.rs:139-144 -/
  | dot
  /-- unit_type.rs:97-104, 158-165 -/
  | unitNew
  /-- unit_type.rs:23-32, 45-69, 106-130, 200-206, 216-222, 232-238, 248-254: `*` with a unit on at least one side -/
  | unitMul
  /-- unit_type.rs:34-43, 71-95, 132-156, 208-214, 224-230, 240-246, 256-262: `/` with a unit on at least one side -/
  | unitDiv
deriving DecidableEq

section
variable {E : Type} [FieldOps E] [DecidableEq E]

/-- The range of a Rust `i32` (the const parameter of `powi`). -/
def InI32 (i : Int) : Prop := -(2 : Int) ^ 31 ≤ i ∧ i < (2 : Int) ^ 31
instance (i : Int) : Decidable (InI32 i) := inferInstanceAs (Decidable (_ ∧ _))

/-- Can a value of type `t` be passed as `Q: Into<Quantity<s, d>>`? Through core's reflexive `From<T> for T`, or the generated
`From<S> for Quantity<S, none>` (num_traits/mod.rs:59-65). -/
def intoQuantityOk (n : Nat) (s : Storage) (d : DimVal E) : Ty E → Bool
  | .quantity s' d' => decide (s' = s) && decide (d' = d)
  | .bare s' => decide (s' = s) && decide (d = DimVal.none n)
  | _ => false

/-- A glam vector type has this axis (vector_methods.rs: `z` only if `num_dims == 3`). -/
def axisOk (a : Axis) (s : Storage) : Bool := s.isVector && decide (a.idx < s.numDims)

/-- The signature of a generated function: the result type for given argument types, `none` if there is no such function. -/
def Fn.sig (n : Nat) : Fn E → List (Ty E) → Option (Ty E)
  | .value | .valueRef | .deref => fun
    | [.quantity s d] =>
      if d = DimVal.none n then some (.bare s) else none
    | _ => none
  | .valueUnchecked | .valueUncheckedRef => fun
    | [.quantity s _] => some (.bare s)
    | _ => none
  | .newUnchecked d => fun
    | [.bare s] => some (.quantity s d)
    | _ => none
  | .valueIn => fun
    -- `S: Div<Magnitude, Output = S>` holds for floats only; any type convertible to a magnitude is accepted
    | [.quantity s _, .unit _] | [.quantity s _, .runtimeUnit _] => if s.isFloat then some (.bare s) else none
    | _ => none
  | .default s d => fun
    | [] => some (.quantity s d)
    | _ => none
  | .from => fun
    | [.bare s] => some (.quantity s (DimVal.none n))
    | _ => none
  | .neg => fun
    | [.quantity s d] => some (.quantity s d)
    | _ => none
  | .sum s d => fun args => if args.all (fun t => decide (t = .quantity s d)) then some (.quantity s d) else none
  | .abs => fun
    | [.quantity s d] => some (.quantity s d)
    | _ => none
  | .dimensionless _ => fun
    | [.quantity s d] =>
      if s.isFloat && decide (d = DimVal.none n) then some (.quantity s (DimVal.none n)) else none
    | _ => none
  | .squared => fun
    | [.quantity s d] => if s.isFloat then (DimVal.mul d 2).map (.quantity s) else none
    | _ => none
  | .cubed => fun
    | [.quantity s d] => if s.isFloat then (DimVal.mul d 3).map (.quantity s) else none
    | _ => none
  | .powi i => fun
    | [.quantity s d] => if s.isFloat && decide (InI32 i) then (DimVal.mul d i).map (.quantity s) else none
    | _ => none
  | .sqrt => fun
    | [.quantity s d] => if s.isFloat then (DimVal.div2 d).map (.quantity s) else none
    | _ => none
  | .cbrt => fun
    | [.quantity s d] => if s.isFloat then (DimVal.div3 d).map (.quantity s) else none
    | _ => none
  | .min | .max => fun
    | [.quantity s d, t] =>
      if s.isFloat then (if intoQuantityOk n s d t then some (.quantity s d) else none)
      else if t = .quantity s d then some (.quantity s d) else none
    | _ => none
  | .clamp => fun
    | [.quantity s d, t, t'] =>
      if s.isFloat && intoQuantityOk n s d t && decide (t' = t) then some (.quantity s d) else none
    | _ => none
  | .zero s d => fun
    | [] => some (.quantity s d)
    | _ => none
  | .isPositive | .isPositiveOrZero | .isNegative | .isNegativeOrZero | .isNan => fun
    | [.quantity s _] => if s.isFloat then some .bool else none
    | _ => none
  | .vnew s => fun
    | [.quantity sx d, .quantity sy dy] =>
      if s.isVector && s.numDims == 2 && decide (sx = s.base.storage ∧ sy = s.base.storage ∧ dy = d) then some (.quantity s d) else none
    | [.quantity sx d, .quantity sy dy, .quantity sz dz] =>
      if s.isVector && s.numDims == 3 && decide (sx = s.base.storage ∧ sy = s.base.storage ∧ sz = s.base.storage ∧ dy = d ∧ dz = d)
      then some (.quantity s d) else none
    | _ => none
  | .newAxis a s => fun
    | [.quantity sq d] => if axisOk a s && decide (sq = s.base.storage) then some (.quantity s d) else none
    | _ => none
  | .axis a => fun
    | [.quantity s d] => if axisOk a s then some (.quantity s.base.storage d) else none
    | _ => none
  | .setAxis a => fun
    | [.quantity s d, .quantity sq dq] =>
      if axisOk a s && decide (sq = s.base.storage ∧ dq = d) then some (.quantity s d) else none
    | _ => none
  | .length => fun
    | [.quantity s d] => if s.isVector then some (.quantity s.base.storage d) else none
    | _ => none
  | .distance => fun
    | [.quantity s d, .quantity s' d'] =>
      if s.isVector && decide (s' = s ∧ d' = d) then some (.quantity s.base.storage d) else none
    | _ => none
  | .distanceSquared => fun
    | [.quantity s d, .quantity s' d'] =>
      if s.isVector && decide (s' = s ∧ d' = d) then (DimVal.mul d 2).map (.quantity s.base.storage) else none
    | _ => none
  | .normalize => fun
    | [.quantity s _] => if s.isVector then some (.quantity s (DimVal.none n)) else none
    | _ => none
  | .dot => fun
    | [.quantity s d, .quantity s' d'] =>
      if s.isVector && decide (s' = s) then (DimVal.add d d').map (.quantity s.base.storage) else none
    | _ => none
  | .unitNew => fun
    -- `S: Mul<Magnitude, Output = S>`
    | [.unit d, .bare s] | [.runtimeUnit d, .bare s] => if s.isFloat then some (.quantity s d) else none
    | _ => none
  | .unitMul => fun
    | [.unit dl, .unit dr] => (DimVal.add dl dr).map .runtimeUnit
    | [.unit dl, .quantity s dr] | [.quantity s dl, .unit dr] | [.runtimeUnit dl, .quantity s dr] | [.quantity s dl, .runtimeUnit dr] =>
      if s.isFloat then (DimVal.add dl dr).map (.quantity s) else none
    | [.bare s, .unit d] | [.unit d, .bare s] | [.bare s, .runtimeUnit d] | [.runtimeUnit d, .bare s] => some (.quantity s d)
    | _ => none
  | .unitDiv => fun
    | [.unit dl, .unit dr] => (DimVal.sub dl dr).map .runtimeUnit
    | [.unit dl, .quantity s dr] | [.quantity s dl, .unit dr] | [.runtimeUnit dl, .quantity s dr] | [.quantity s dl, .runtimeUnit dr] =>
      if s.isFloat then (DimVal.sub dl dr).map (.quantity s) else none
    -- the code writes `Quantity<X, D>` in all four
    | [.bare s, .unit d] | [.unit d, .bare s] | [.bare s, .runtimeUnit d] | [.runtimeUnit d, .bare s] => some (.quantity s d)
    | _ => none

variable {K M : Type} [Prims K M]

/-- `other.into().0` for `Q: Into<Self>` -/
def Val.into0 : Val K M → Option (Raw K)
  | .quantity r => some r
  | .bare r => some r
  | _ => none

/-- core's / glam's zero of a storage type. -/
def zeroRaw (M : Type) [Prims K M] (s : Storage) : Raw K := List.replicate s.numDims (Prims.zero M s.base)

/-- glam `dot`: `x*x' + y*y' (+ z*z')`, summed left to right. -/
def rawDot (M : Type) [Prims K M] (t : FloatTy) (a b : Raw K) : Option K :=
  match List.zipWith (Prims.mul M t) a b with
  | [] => none
  | p :: ps => some (ps.foldl (Prims.add M t) p)

/-- glam `length`: `sqrt(dot(self, self))` -/
def rawLength (M : Type) [Prims K M] (t : FloatTy) (a : Raw K) : Option K := (rawDot M t a a).map (Prims.sqrt M t)

/-- glam `X`, `Y`, `Z`: the unit vectors. -/
def axisRaw (M : Type) [Prims K M] (a : Axis) (s : Storage) : Raw K :=
  (List.range s.numDims).map fun i => if i = a.idx then Prims.one M s.base else Prims.zero M s.base

/-- `x <= y` on floats -/
def rawLe (M : Type) [Prims K M] (t : FloatTy) (x y : K) : Bool := Prims.lt M t x y || Prims.eq M t x y

/-- num_traits/mod.rs:29-35 `sum`: `total = default; for item in iter { total += item }`, where `+=` is the generated `AddAssign`. -/
def sumLoop (s : Storage) (total : Val K M) : List (Val K M) → Option (Val K M)
  | [] => some total
  | item :: rest => do
    let total ← (⟨.addAssign, qG, qG⟩ : OperatorTrait).run s s total item
    sumLoop s total rest

/-- The storage type of the first argument that has one. -/
def storageOf : List (Ty E) → Option Storage
  | .quantity s _ :: _ => some s
  | .bare s :: _ => some s
  | _ :: rest => storageOf rest
  | [] => none

/-- The bodies of the generated functions, at storage type `s` (that of the first argument that has one). -/
def Fn.body (s : Storage) : Fn E → List (Val K M) → Option (Val K M)
  | .value | .valueRef | .deref | .valueUnchecked | .valueUncheckedRef => fun
    | [.quantity r] => some (.bare r)
    | _ => none
  | .newUnchecked _ => fun
    | [.bare r] => some (.quantity r)
    | _ => none
  | .valueIn => fun
    -- `self.value_unchecked() / a.into()`
    | [.quantity r, .unit m] | [.quantity r, .runtimeUnit m] =>
      some (.bare (r.map fun x => Prims.div M s.base x (Prims.into s.base m)))
    | _ => none
  | .default s' _ => fun
    | [] => some (.quantity (zeroRaw M s'))
    | _ => none
  | .from => fun
    | [.bare r] => some (.quantity r)
    | _ => none
  | .neg => fun
    | [.quantity r] => some (.quantity (r.map (Prims.neg M s.base)))
    | _ => none
  | .sum s' _ => fun args => sumLoop s' (.quantity (zeroRaw M s')) args
  | .abs => fun
    | [.quantity r] => some (.quantity (r.map (Prims.abs M s.base)))
    | _ => none
  | .dimensionless f => fun
    | [.quantity [x]] => some (.quantity [Prims.fn M f s.base x])
    | _ => none
  | .squared => fun
    | [.quantity [x]] => some (.quantity [Prims.powi M s.base x 2])
    | _ => none
  | .cubed => fun
    | [.quantity [x]] => some (.quantity [Prims.powi M s.base x 3])
    | _ => none
  | .powi i => fun
    | [.quantity [x]] => some (.quantity [Prims.powi M s.base x i])
    | _ => none
  | .sqrt => fun
    | [.quantity [x]] => some (.quantity [Prims.sqrt M s.base x])
    | _ => none
  | .cbrt => fun
    | [.quantity [x]] => some (.quantity [Prims.cbrt M s.base x])
    | _ => none
  | .min => fun
    | [.quantity r, v] => v.into0.map fun r' => .quantity (List.zipWith (Prims.min M s.base) r r')
    | _ => none
  | .max => fun
    | [.quantity r, v] => v.into0.map fun r' => .quantity (List.zipWith (Prims.max M s.base) r r')
    | _ => none
  | .clamp => fun
    | [.quantity [x], lo, hi] =>
      match lo.into0, hi.into0 with
      | some [a], some [b] => (Prims.clamp M s.base x a b).map fun y => .quantity [y]
      | _, _ => none
    | _ => none
  | .zero s' _ => fun
    | [] => some (.quantity (zeroRaw M s'))
    | _ => none
  | .isPositive => fun
    | [.quantity [x]] => some (.bool (Prims.lt M s.base (Prims.zero M s.base) x))
    | _ => none
  | .isPositiveOrZero => fun
    | [.quantity [x]] => some (.bool (rawLe M s.base (Prims.zero M s.base) x))
    | _ => none
  | .isNegative => fun
    | [.quantity [x]] => some (.bool (Prims.lt M s.base x (Prims.zero M s.base)))
    | _ => none
  | .isNegativeOrZero => fun
    | [.quantity [x]] => some (.bool (rawLe M s.base x (Prims.zero M s.base)))
    | _ => none
  | .isNan => fun
    | [.quantity [x]] => some (.bool (Prims.isNan M s.base x))
    | _ => none
  | .vnew _ => fun
    | [.quantity [x], .quantity [y]] => some (.quantity [x, y])
    | [.quantity [x], .quantity [y], .quantity [z]] => some (.quantity [x, y, z])
    | _ => none
  | .newAxis a s' => fun
    -- `q * <V>::X` through the generated `Quantity * V`
    | [v] => (⟨.mul, qG, sC s'⟩ : OperatorTrait).run s'.base.storage s' v (.bare (axisRaw M a s'))
    | _ => none
  | .axis a => fun
    | [.quantity r] => r[a.idx]?.map fun x => .quantity [x]
    | _ => none
  | .setAxis a => fun
    | [.quantity r, .quantity [x]] => some (.quantity (r.set a.idx x))
    | _ => none
  | .length => fun
    | [.quantity r] => (rawLength M s.base r).map fun x => .quantity [x]
    | _ => none
  | .distance => fun
    -- glam: `(self - rhs).length()`
    | [.quantity r, .quantity r'] =>
      (rawLength M s.base (List.zipWith (Prims.sub M s.base) r r')).map fun x => .quantity [x]
    | _ => none
  | .distanceSquared => fun
    -- glam: `(self - rhs).length_squared()`
    | [.quantity r, .quantity r'] =>
      let δ := List.zipWith (Prims.sub M s.base) r r'
      (rawDot M s.base δ δ).map fun x => .quantity [x]
    | _ => none
  | .normalize => fun
    -- glam: `self * self.length().recip()`
    | [.quantity r] =>
      (rawLength M s.base r).map fun l => .quantity (r.map fun x => Prims.mul M s.base x (Prims.div M s.base (Prims.one M s.base) l))
    | _ => none
  | .dot => fun
    | [.quantity r, .quantity r'] => (rawDot M s.base r r').map fun x => .quantity [x]
    | _ => none
  | .unitNew => fun
    -- `val * F`
    | [.unit m, .bare r] | [.runtimeUnit m, .bare r] =>
      some (.quantity (r.map fun x => Prims.mul M s.base x (Prims.into s.base m)))
    | _ => none
  | .unitMul => fun
    | [.unit m, .unit m'] => some (.runtimeUnit (Prims.magMul K m m'))
    -- `x.value_unchecked() * FL`
    | [.unit m, .quantity r] | [.runtimeUnit m, .quantity r] | [.quantity r, .unit m] | [.quantity r, .runtimeUnit m] =>
      some (.quantity (r.map fun x => Prims.mul M s.base x (Prims.into s.base m)))
    -- `self * F.into_float()`
    | [.bare r, .unit m] | [.bare r, .runtimeUnit m] =>
      some (.quantity (r.map fun x => Prims.mul M s.base x (Prims.into s.base m)))
    -- `F.into_float() * f`
    | [.unit m, .bare r] | [.runtimeUnit m, .bare r] =>
      some (.quantity (r.map fun x => Prims.mul M s.base (Prims.into s.base m) x))
    | _ => none
  | .unitDiv => fun
    | [.unit m, .unit m'] => some (.runtimeUnit (Prims.magDiv K m m'))
    -- `x.value_unchecked() / FL`, also when the unit is on the left
    | [.unit m, .quantity r] | [.runtimeUnit m, .quantity r] | [.quantity r, .unit m] | [.quantity r, .runtimeUnit m] =>
      some (.quantity (r.map fun x => Prims.div M s.base x (Prims.into s.base m)))
    -- `self / F.into_float()`
    | [.bare r, .unit m] | [.bare r, .runtimeUnit m] =>
      some (.quantity (r.map fun x => Prims.div M s.base x (Prims.into s.base m)))
    -- `F.into_float() / f`
    | [.unit m, .bare r] | [.runtimeUnit m, .bare r] =>
      some (.quantity (r.map fun x => Prims.div M s.base (Prims.into s.base m) x))
    | _ => none

/-- Calling a generated function: type check, then run the body. -/
def Fn.run (n : Nat) (f : Fn E) (tys : List (Ty E)) (args : List (Val K M)) : Option (Val K M) :=
  if (f.sig n tys).isNone then none else f.body ((storageOf tys).getD .f64) args

end
end Diman
