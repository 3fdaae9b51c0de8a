import Verif.Proofs.Generated
import Verif.Model.System
/-! A structurally recursive copy of the resolver, equal to it, that the kernel can run on concrete unit systems. -/
set_option linter.unusedSectionVars false
namespace Diman
variable {E M : Type} [Exponent E] [MagOps E M]

/-- `resolveLoop` with an explicit iteration bound. -/
def resolveLoopFuel : Nat → List (Item E M) → BMap (ResolvedItem E M) → Option (BMap (ResolvedItem E M) × List Diag)
  | 0, l, res => if l.isEmpty then some (res, []) else none
  | n + 1, l, res =>
    if l.isEmpty then some (res, [])
    else match takeResolvable res l with
      | some (x, rest) => do
        let d ← resolveDimensions res x
        resolveLoopFuel n rest (res.insert x.ident ⟨x, d⟩)
      | none => some (res, [.unresolvable (l.map Item.ident)])

/-- The loop ends after at most as many iterations as there are definitions. -/
theorem resolveLoop_eq_fuel (l : List (Item E M)) (res : BMap (ResolvedItem E M)) (n : Nat) (hn : l.length ≤ n) :
    resolveLoop l res = resolveLoopFuel n l res := by
  induction n generalizing l res with
  | zero =>
    have : l = [] := List.eq_nil_of_length_eq_zero (by omega)
    subst this
    rw [resolveLoop, resolveLoopFuel]; rfl
  | succ n ih =>
    rw [resolveLoop, resolveLoopFuel]
    cases hl : l.isEmpty with
    | true => rfl
    | false =>
      simp only [Bool.false_eq_true, if_false]
      split
      · rename_i x rest ht
        have := takeResolvable_length ht
        rw [ht]
        simp only
        congr 1
        funext d
        exact ih _ _ (by omega)
      · rename_i ht; rw [ht]

/-- `resolveItems` on the bounded loop. -/
def resolveItemsFuel (items : List (Item E M)) : Option (BMap (ResolvedItem E M) × List Diag) := do
  let (l1, d1) := filterUndefined items
  let l2 := filterAutogenerated l1
  let d2 := multiplyDefined l2
  let l3 := filterAutogenerated l2
  let d3 := checkKinds l3
  let l4 := filterAutogenerated l3
  let (res, d4) ← resolveLoopFuel l4.length l4 []
  return (res, d1 ++ d2 ++ d3 ++ d4 ++ checkAnnotations res)

/-- `resolveDefs` on the bounded loop. -/
def resolveDefsFuel (u : UnresolvedDefs E M) : Option (Defs E M × List Diag) := do
  let (quantityType, e1) := getSingleIdent u.quantityTypes (str!"quantity type") (str!"Quantity")
  let (dimensionType, e2) := getSingleIdent u.dimensionTypes (str!"dimension type") (str!"Dimension")
  let baseNames := (u.dimensions.filter DimensionEntry.isBase).map DimensionEntry.name
  let e3 := checkBaseUnits baseNames (fun _ => 0) u.units
  let e4 := checkSymbols u.units
  let (res, e5) ← resolveItemsFuel (allItems u)
  let dimensions ← getDimensions res
  let units ← getUnits res
  let constants ← getConstants res
  return ({ dimensionType, quantityType, dimensions, units, constants, baseDimensions := baseDimensions u.dimensions },
    e1 ++ e2 ++ e3 ++ e4 ++ e5 ++ checkBaseSymbols units)

theorem resolveDefs_eq_fuel (u : UnresolvedDefs E M) : resolveDefs u = resolveDefsFuel u := by
  unfold resolveDefs resolveDefsFuel resolveItems resolveItemsFuel
  simp only [resolveLoop_eq_fuel _ _ _ (le_refl _)]

end Diman
