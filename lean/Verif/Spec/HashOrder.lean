import Verif.Model.System
import Verif.Model.DimType
/-!
# The resolver with unspecified hash map iteration order
Specification vocabulary for C40. Rust's `HashMap` iterates in an unspecified order that differs from map to map and from run to run. Here
every operation that iterates over the map of a dimension may see its entries in any order and produce its own in any order, and the
errors built from iterating over a `HashMap` (duplicate names, duplicate symbols) may come in any order. `ResolveOutcome u o`: `o` is a
possible outcome (a panic is `none`) for the statements `u`. `Model/Resolve.lean` is one instance (`C40_model_is_an_outcome`).
-/
namespace Diman
variable {E M : Type} [Exponent E] [MagOps E M]

/-- The same map: the same entries, in some order. -/
def SameEntries : Option (Dims E) → Option (Dims E) → Prop
  | none, none => True
  | some a, some b => List.Perm a b
  | _, _ => False

/-- dimension_math.rs:63-79: `*`, iterating over the right operand in any order. -/
def MulOutcome (a b : Dims E) (r : Option (Dims E)) : Prop := ∃ b', List.Perm b' b ∧ SameEntries (Dims.mul a b') r
/-- dimension_math.rs:81-88: `inv`, in any order. -/
def InvOutcome (a : Dims E) (r : Option (Dims E)) : Prop := ∃ a', List.Perm a' a ∧ SameEntries (Dims.inv a') r
/-- dimension_math.rs:90-97: `/`. -/
def DivOutcome (a b : Dims E) (r : Option (Dims E)) : Prop :=
  ∃ i, InvOutcome b i ∧ match i with
    | none => r = none
    | some b' => MulOutcome a b' r
/-- dimension_math.rs:99-109: `pow`, in any order. -/
def PowOutcome (a : Dims E) (p : E) (r : Option (Dims E)) : Prop := ∃ a', List.Perm a' a ∧ SameEntries (Dims.pow p a') r

mutual
/-- expression.rs:125-139 `Expr::eval`, dimension_math.rs:127-156, in any order. -/
def Expr.Outcome : Expr (DM E M) E → Option (DM E M) → Prop
  | .value f, r => f.Outcome r
  | .binary l o f, r => ∃ a, Expr.Outcome l a ∧ match a with
    | none => r = none
    | some a => ∃ b, Factor.Outcome f b ∧ match b with
      | none => r = none
      | some b => match o with
        | .mul => ∃ c, MulOutcome a.dims b.dims c ∧ r = c.map fun d => ⟨d, MagOps.mul E a.mag b.mag⟩
        | .div => ∃ c, DivOutcome a.dims b.dims c ∧ r = c.map fun d => ⟨d, MagOps.div E a.mag b.mag⟩
/-- expression.rs:141-149 `Factor::eval`, in any order. -/
def Factor.Outcome : Factor (DM E M) E → Option (DM E M) → Prop
  | .value v, r => r = some v
  | .power v e, r => ∃ c, PowOutcome v.dims e c ∧ r = c.map fun d => ⟨d, MagOps.pow v.mag e⟩
  | .paren e, r => Expr.Outcome e r
end

/-- ident_storage.rs:130-138 `resolve_dimensions`, in any order. -/
def DimensionsOutcome (res : BMap (ResolvedItem E M)) (i : Item E M) (r : Option (DM E M)) : Prop :=
  match i.expr.mapM (fun
    | .concrete c => some c
    | .other x => (res.get x).map ResolvedItem.dimensions) with
  | none => r = none
  | some e => e.Outcome r

/-- ident_storage.rs:144-175 `resolve`, in any order. -/
inductive LoopOutcome : List (Item E M) → BMap (ResolvedItem E M) → Option (BMap (ResolvedItem E M) × List Diag) → Prop
  | done (res) : LoopOutcome [] res (some (res, []))
  | stuck (l res) (hl : l ≠ []) (ht : takeResolvable res l = none) :
      LoopOutcome l res (some (res, [.unresolvable (l.map Item.ident)]))
  | panic {l res x rest} (ht : takeResolvable res l = some (x, rest)) (hd : DimensionsOutcome res x none) : LoopOutcome l res none
  | step {l res x rest d o} (ht : takeResolvable res l = some (x, rest)) (hd : DimensionsOutcome res x (some d))
      (hr : LoopOutcome rest (res.insert x.ident ⟨x, d⟩) o) : LoopOutcome l res o

/-- ident_storage.rs:233-256 `filter_multiply_defined`: the groups in any order. -/
def MultiplyDefinedOutcome (l : List (Item E M)) (ds : List Diag) : Prop :=
  match multiplyDefined l with
  | [.multipleDefinitions groups] => ∃ groups', List.Perm groups' groups ∧ ds = [.multipleDefinitions groups']
  | other => ds = other

/-- resolve/mod.rs:80-87, in any order. -/
def ItemsOutcome (items : List (Item E M)) (o : Option (BMap (ResolvedItem E M) × List Diag)) : Prop :=
  let (l1, d1) := filterUndefined items
  let l2 := filterAutogenerated l1
  let l3 := filterAutogenerated l2
  let d3 := checkKinds l3
  let l4 := filterAutogenerated l3
  ∃ d2, MultiplyDefinedOutcome l2 d2 ∧ ∃ p, LoopOutcome l4 [] p ∧
    o = p.map fun (res, d4) => (res, d1 ++ d2 ++ d3 ++ d4 ++ checkAnnotations res)

/-- resolve/mod.rs:63-100 `UnresolvedDefs::resolve`, in any order. -/
def ResolveOutcome (u : UnresolvedDefs E M) (o : Option (Defs E M × List Diag)) : Prop :=
  let (quantityType, e1) := getSingleIdent u.quantityTypes (str!"quantity type") (str!"Quantity")
  let (dimensionType, e2) := getSingleIdent u.dimensionTypes (str!"dimension type") (str!"Dimension")
  let baseNames := (u.dimensions.filter DimensionEntry.isBase).map DimensionEntry.name
  let e3 := checkBaseUnits baseNames (fun _ => 0) u.units
  ∃ e4, List.Perm e4 (checkSymbols u.units) ∧ ∃ p, ItemsOutcome (allItems u) p ∧
    o = p.bind fun (res, e5) => do
      let dimensions ← getDimensions res
      let units ← getUnits res
      let constants ← getConstants res
      return ({ dimensionType, quantityType, dimensions, units, constants, baseDimensions := baseDimensions u.dimensions },
        e1 ++ e2 ++ e3 ++ e4 ++ e5 ++ checkBaseSymbols units)

/-- A possible outcome of the macro after parsing: expansion, then resolution. -/
def MacroOutcome (factor : Prefix → M) (t : UnresolvedTemplates E M) (o : Option (Defs E M × List Diag)) : Prop :=
  ResolveOutcome (UnresolvedTemplates.expand (MagOps.one E) factor t) o

/-- The same error up to the order of the groups it lists. -/
def Diag.Same (a b : Diag) : Prop :=
  a = b ∨ ∃ g g', a = .multipleDefinitions g ∧ b = .multipleDefinitions g' ∧ List.Perm g g'

/-- The same errors, up to their order. -/
def SameErrors (a b : List Diag) : Prop := ∃ c, List.Perm a c ∧ List.Forall₂ Diag.Same c b

/-- The same definitions: the same names, factors, symbols and flags in the same order, the same exponents. -/
structure SameDefs (a b : Defs E M) : Prop where
  dimensionType : a.dimensionType = b.dimensionType
  quantityType : a.quantityType = b.quantityType
  baseDimensions : a.baseDimensions = b.baseDimensions
  dimensions : List.Forall₂ (fun x y => x.name = y.name ∧ List.Perm x.dims y.dims) a.dimensions b.dimensions
  units : List.Forall₂ (fun x y => x.name = y.name ∧ List.Perm x.dims y.dims ∧ x.mag = y.mag ∧ x.symbol = y.symbol ∧
    x.isBase = y.isBase) a.units b.units
  constants : List.Forall₂ (fun x y => x.name = y.name ∧ List.Perm x.dims y.dims ∧ x.mag = y.mag) a.constants b.constants

/-- The same outcome: both are panics, or both give the same definitions and the same errors. -/
def SameOutcome : Option (Defs E M × List Diag) → Option (Defs E M × List Diag) → Prop
  | none, none => True
  | some (defs, errors), some (defs', errors') => SameDefs defs defs' ∧ SameErrors errors errors'
  | _, _ => False

end Diman
