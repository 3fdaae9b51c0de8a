import Verif.Proofs.Shape
/-! The resolver commutes with every map of numbers that respects their arithmetic. -/
set_option linter.unusedSectionVars false
namespace Diman
variable {E M M' : Type} [Exponent E] [MagOps E M] [MagOps E M']

/-- A map of numbers that respects the arithmetic the resolver does with them. -/
class MagHom (E : Type) {M M' : Type} [MagOps E M] [MagOps E M'] (φ : M → M') : Prop where
  one : φ (MagOps.one E) = MagOps.one E
  mul : ∀ a b, φ (MagOps.mul E a b) = MagOps.mul E (φ a) (φ b)
  div : ∀ a b, φ (MagOps.div E a b) = MagOps.div E (φ a) (φ b)
  pow : ∀ a (e : E), φ (MagOps.pow a e) = MagOps.pow (φ a) e

def Expr.mapMag (φ : M → M') (e : Expr (Atom M) E) : Expr (Atom M') E := e.map (Atom.mapConcrete φ)
def Definition.mapMag (φ : M → M') {B : Type} : Definition E B M → Definition E B M'
  | .base b => .base b
  | .expression e => .expression (e.mapMag φ)
def ConstantEntry.mapMag (φ : M → M') (c : ConstantEntry E M) : ConstantEntry E M' := ⟨c.name, c.rhs.mapMag φ, c.annotation⟩
def UnitTemplate.mapMag (φ : M → M') (u : UnitTemplate E M) : UnitTemplate E M' :=
  ⟨u.name, u.symbol, u.aliases, u.prefixes, u.annotation, u.definition.mapMag φ⟩
def UnitEntry.mapMag (φ : M → M') (u : UnitEntry E M) : UnitEntry E M' :=
  ⟨u.name, u.symbol, u.annotation, u.definition.mapMag φ, u.autogeneratedFrom⟩
def UnresolvedTemplates.mapMag (φ : M → M') (t : UnresolvedTemplates E M) : UnresolvedTemplates E M' :=
  ⟨t.dimensionTypes, t.quantityTypes, t.dimensions, t.units.map (UnitTemplate.mapMag φ), t.constants.map (ConstantEntry.mapMag φ)⟩
def UnresolvedDefs.mapMag (φ : M → M') (t : UnresolvedDefs E M) : UnresolvedDefs E M' :=
  ⟨t.dimensionTypes, t.quantityTypes, t.dimensions, t.units.map (UnitEntry.mapMag φ), t.constants.map (ConstantEntry.mapMag φ)⟩
def Defs.mapMag (φ : M → M') (d : Defs E M) : Defs E M' :=
  { dimensionType := d.dimensionType
    quantityType := d.quantityType
    dimensions := d.dimensions
    units := d.units.map fun u => ⟨u.name, u.dims, φ u.mag, u.symbol, u.isBase⟩
    constants := d.constants.map fun c => ⟨c.name, c.dims, φ c.mag⟩
    baseDimensions := d.baseDimensions }

def DM.mapMag (φ : M → M') (d : DM E M) : DM E M' := ⟨d.dims, φ d.mag⟩
def ItemType.mapMag (φ : M → M') : ItemType E M → ItemType E M'
  | .dimension d => .dimension d
  | .unit u => .unit (u.mapMag φ)
  | .constant c => .constant (c.mapMag φ)
def Item.mapMag (φ : M → M') (i : Item E M) : Item E M' := ⟨i.expr.map (Atom.mapConcrete (DM.mapMag φ)), (i.type.mapMag φ)⟩
def ResolvedItem.mapMag (φ : M → M') (r : ResolvedItem E M) : ResolvedItem E M' := ⟨(r.item.mapMag φ), (r.dimensions.mapMag φ)⟩
def BMap.mapMag (φ : M → M') (m : BMap (ResolvedItem E M)) : BMap (ResolvedItem E M') := m.map fun p => (p.1, (p.2.mapMag φ))

variable {φ : M → M'} [MagHom E φ]

@[simp] theorem Item.mapMag_kind (i : Item E M) : (i.mapMag φ).kind = i.kind := by
  obtain ⟨e, t⟩ := i
  cases t with
  | dimension d => rfl
  | unit u => obtain ⟨n, s, a, d, g⟩ := u; cases d <;> rfl
  | constant c => rfl
@[simp] theorem Item.mapMag_ident (i : Item E M) : (i.mapMag φ).ident = i.ident := by
  obtain ⟨e, t⟩ := i; cases t <;> rfl
@[simp] theorem Item.mapMag_annotation (i : Item E M) : (i.mapMag φ).annotation = i.annotation := by
  obtain ⟨e, t⟩ := i; cases t <;> rfl
@[simp] theorem Item.mapMag_auto (i : Item E M) : (i.mapMag φ).autogeneratedFrom = i.autogeneratedFrom := by
  obtain ⟨e, t⟩ := i; cases t <;> rfl
theorem Item.mapMag_vals (i : Item E M) : (i.mapMag φ).expr.vals = i.expr.vals.map (Atom.mapConcrete (DM.mapMag φ)) := by
  simp [Item.mapMag, Expr.vals_map]
@[simp] theorem Item.mapMag_refs (i : Item E M) : (i.mapMag φ).refs = i.refs := by
  unfold Item.refs
  rw [Item.mapMag_vals, List.filterMap_map]
  congr 1; funext a; cases a <;> rfl

@[simp] theorem DM.mapMag_dimensions (d : Dims E) : (DM.dimensions d : DM E M).mapMag φ = DM.dimensions d := by
  simp [DM.mapMag, DM.dimensions, MagHom.one]
theorem Item.mapMag_ofDimension (d : DimensionEntry E) : ((Item.ofDimension (M := M) d).mapMag φ) = Item.ofDimension d := by
  obtain ⟨n, r⟩ := d
  cases r with
  | base b => simp [Item.ofDimension, Item.mapMag, Expr.map, Factor.map, Atom.mapConcrete, ItemType.mapMag]
  | expression e =>
    simp only [Item.ofDimension, Item.mapMag, Expr.map_map, Atom.mapConcrete_comp,
      show (DM.mapMag φ ∘ fun _ : Unit => (DM.dimensions [] : DM E M)) = fun _ => DM.dimensions [] from
        funext fun _ => DM.mapMag_dimensions []]
    rfl
theorem Item.mapMag_ofUnit (d : UnitEntry E M) : ((Item.ofUnit d).mapMag φ) = Item.ofUnit (d.mapMag φ) := by
  obtain ⟨n, s, a, r, g⟩ := d
  cases r with
  | base b => rfl
  | expression e =>
    simp only [Item.ofUnit, Item.mapMag, UnitEntry.mapMag, Definition.mapMag, Expr.mapMag, Expr.map_map, Atom.mapConcrete_comp]
    rfl
theorem Item.mapMag_ofConstant (d : ConstantEntry E M) : ((Item.ofConstant d).mapMag φ) = Item.ofConstant (d.mapMag φ) := by
  obtain ⟨n, r, a⟩ := d
  simp only [Item.ofConstant, Item.mapMag, ConstantEntry.mapMag, Expr.mapMag, Expr.map_map, Atom.mapConcrete_comp]
  rfl

theorem allItems_mapMag (u : UnresolvedDefs E M) : allItems (u.mapMag φ) = (allItems u).map (Item.mapMag φ) := by
  simp only [allItems, UnresolvedDefs.mapMag, List.map_append, List.map_map]
  congr 1; congr 1
  · apply List.map_congr_left; intro d _; exact (Item.mapMag_ofDimension d).symm
  · apply List.map_congr_left; intro d _; exact (Item.mapMag_ofUnit d).symm
  · apply List.map_congr_left; intro d _; exact (Item.mapMag_ofConstant d).symm

theorem BMap.mapMag_get (m : BMap (ResolvedItem E M)) (k : Str) : BMap.get (m.mapMag φ) k = (BMap.get m k).map (ResolvedItem.mapMag φ) := by
  induction m with
  | nil => rfl
  | cons p m ih =>
    obtain ⟨k', v⟩ := p
    show BMap.get ((k', (v.mapMag φ)) :: (BMap.mapMag φ) m) k = _
    simp only [BMap.get]
    split
    · rfl
    · exact ih
theorem BMap.mapMag_insert (m : BMap (ResolvedItem E M)) (k : Str) (v : ResolvedItem E M) :
    ((BMap.insert m k v).mapMag φ) = BMap.insert (m.mapMag φ) k (v.mapMag φ) := by
  induction m with
  | nil => rfl
  | cons p m ih =>
    obtain ⟨k', v'⟩ := p
    show (BMap.mapMag φ) (BMap.insert ((k', v') :: m) k v) = BMap.insert ((k', (v'.mapMag φ)) :: (BMap.mapMag φ) m) k (v.mapMag φ)
    simp only [BMap.insert]
    split
    · rfl
    · split
      · rfl
      · rw [← ih]; rfl

theorem isResolvable_mapMag (res : BMap (ResolvedItem E M)) (i : Item E M) : isResolvable (res.mapMag φ) (i.mapMag φ) = isResolvable res i := by
  unfold isResolvable
  rw [Item.mapMag_vals, List.all_map]
  congr 1; funext a
  cases a with
  | concrete c => rfl
  | other x => simp [Atom.mapConcrete, BMap.contains, BMap.mapMag_get]

mutual
theorem Expr.eval_mapMag (e : Expr (DM E M) E) : (e.map (DM.mapMag φ)).eval = (e.eval).map (DM.mapMag φ) := by
  match e with
  | .value v => simp [Expr.map, Expr.eval, Factor.eval_mapMag v]
  | .binary l o r =>
    simp only [Expr.map, Expr.eval, Factor.eval_mapMag r, Expr.eval_mapMag l]
    cases hl : l.eval with
    | none => rfl
    | some a =>
      cases hr : r.eval with
      | none => rfl
      | some b =>
        cases o with
        | mul =>
          show (do return (⟨← a.dims.mul b.dims, MagOps.mul E (φ a.mag) (φ b.mag)⟩ : DM E M')) = Option.map (DM.mapMag φ) (do return ⟨← a.dims.mul b.dims, MagOps.mul E a.mag b.mag⟩)
          rw [← MagHom.mul (E := E) (φ := φ)]; cases a.dims.mul b.dims <;> rfl
        | div =>
          show (do return (⟨← a.dims.div b.dims, MagOps.div E (φ a.mag) (φ b.mag)⟩ : DM E M')) = Option.map (DM.mapMag φ) (do return ⟨← a.dims.div b.dims, MagOps.div E a.mag b.mag⟩)
          rw [← MagHom.div (E := E) (φ := φ)]; cases a.dims.div b.dims <;> rfl
theorem Factor.eval_mapMag (e : Factor (DM E M) E) : (e.map (DM.mapMag φ)).eval = (e.eval).map (DM.mapMag φ) := by
  match e with
  | .value v => rfl
  | .power v x =>
    show (do return (⟨← v.dims.pow x, MagOps.pow (φ v.mag) x⟩ : DM E M')) = Option.map (DM.mapMag φ) (do return ⟨← v.dims.pow x, MagOps.pow v.mag x⟩)
    rw [← MagHom.pow (φ := φ)]; cases v.dims.pow x <;> rfl
  | .paren e => simp [Factor.map, Factor.eval, Expr.eval_mapMag e]
end

theorem resolveDimensions_mapMag (res : BMap (ResolvedItem E M)) (i : Item E M) :
    resolveDimensions (res.mapMag φ) (i.mapMag φ) = (resolveDimensions res i).map (DM.mapMag φ) := by
  rw [resolveDimensions_def, resolveDimensions_def]
  have : (i.mapMag φ).expr.mapM (leafOf (res.mapMag φ)) = (i.expr.mapM (leafOf res)).map (Expr.map (DM.mapMag φ)) := by
    rw [← Expr.map_mapM, Item.mapMag, Expr.mapM_map]
    congr 1; funext a
    cases a with
    | concrete c => rfl
    | other x =>
      simp only [Atom.mapConcrete, leafOf, BMap.mapMag_get, Option.map_map]
      rfl
  rw [this]
  cases i.expr.mapM (leafOf res) with
  | none => rfl
  | some e => exact Expr.eval_mapMag e

theorem takeResolvable_mapMag (res : BMap (ResolvedItem E M)) (l : List (Item E M)) :
    takeResolvable (res.mapMag φ) (l.map (Item.mapMag φ)) =
      (takeResolvable res l).map fun p => ((p.1.mapMag φ), p.2.map (Item.mapMag φ)) := by
  induction l with
  | nil => rfl
  | cons x l ih =>
    simp only [List.map_cons, takeResolvable, isResolvable_mapMag]
    split
    · rfl
    · rw [ih]; cases takeResolvable res l <;> rfl

theorem resolveLoop_mapMag (l : List (Item E M)) (res : BMap (ResolvedItem E M)) :
    resolveLoop (l.map (Item.mapMag φ)) (res.mapMag φ) = (resolveLoop l res).map fun p => ((p.1.mapMag φ), p.2) := by
  obtain ⟨n, hn⟩ : ∃ n, l.length = n := ⟨_, rfl⟩
  induction n generalizing l res with
  | zero =>
    have : l = [] := List.eq_nil_of_length_eq_zero hn
    subst this
    rw [resolveLoop, resolveLoop]; rfl
  | succ n ih =>
    rw [resolveLoop, resolveLoop]
    have he : (l.map (Item.mapMag φ)).isEmpty = l.isEmpty := by cases l <;> rfl
    rw [he]
    cases hl : l.isEmpty with
    | true => simp
    | false =>
      simp only [Bool.false_eq_true, if_false]
      have hts := takeResolvable_mapMag (φ := φ) res l
      split
      · rename_i x rest ht
        rw [ht] at hts
        cases ht' : takeResolvable res l with
        | none => rw [ht'] at hts; simp at hts
        | some p =>
          obtain ⟨x', rest'⟩ := p
          rw [ht'] at hts
          simp only [Option.map_some, Option.some.injEq, Prod.mk.injEq] at hts
          obtain ⟨rfl, rfl⟩ := hts
          simp only
          rw [resolveDimensions_mapMag]
          cases resolveDimensions res x' with
          | none => rfl
          | some d =>
            simp only [Option.map_some, Option.bind_eq_bind, Option.bind_some, Item.mapMag_ident]
            have := ih rest' (res.insert x'.ident ⟨x', d⟩) (by have := takeResolvable_length ht'; omega)
            rw [← this, BMap.mapMag_insert]; rfl
      · rename_i ht
        rw [ht] at hts
        cases ht' : takeResolvable res l with
        | some p => rw [ht'] at hts; simp at hts
        | none => simp [Function.comp_def]

theorem ids_mapMag (l : List (Item E M)) : (l.map (Item.mapMag φ)).map Item.ident = l.map Item.ident := by
  simp [Function.comp_def]

theorem filterAutogenerated_mapMag (l : List (Item E M)) :
    filterAutogenerated (l.map (Item.mapMag φ)) = (filterAutogenerated l).map (Item.mapMag φ) := by
  unfold filterAutogenerated
  rw [List.filter_map]
  congr 1
  simp [unresolvedIdents, Function.comp_def]

theorem filterUndefined_mapMag (l : List (Item E M)) :
    filterUndefined (l.map (Item.mapMag φ)) = ((filterUndefined l).1.map (Item.mapMag φ), (filterUndefined l).2) := by
  have hf : ∀ defined, (firstUndefined defined ∘ (Item.mapMag φ) : Item E M → _) = firstUndefined defined := by
    intro d; funext i; simp [firstUndefined]
  unfold filterUndefined
  simp only [unresolvedIdents, ids_mapMag, List.filterMap_map, hf, List.filter_map]
  congr 1
  congr 1
  simp [Function.comp_def, firstUndefined]

theorem multiplyDefined_mapMag (l : List (Item E M)) : multiplyDefined (l.map (Item.mapMag φ)) = multiplyDefined l := by
  unfold multiplyDefined; simp only [ids_mapMag]

theorem kindOf_mapMag (l : List (Item E M)) (x : Str) : kindOf (l.map (Item.mapMag φ)) x = kindOf l x := by
  unfold kindOf
  rw [← List.map_reverse, List.find?_map]
  simp [Function.comp_def]

theorem checkKinds_mapMag (l : List (Item E M)) : checkKinds (l.map (Item.mapMag φ)) = checkKinds l := by
  unfold checkKinds
  rw [List.flatMap_map]
  simp only [Item.mapMag_refs, kindOf_mapMag, Item.mapMag_kind, Item.mapMag_ident]

theorem checkAnnotations_mapMag (res : BMap (ResolvedItem E M)) : checkAnnotations (res.mapMag φ) = checkAnnotations res := by
  unfold checkAnnotations
  have hg := BMap.mapMag_get (φ := φ) res
  generalize hS : (BMap.mapMag φ) res = S at hg
  have h1 : ∀ f : Str × ResolvedItem E M' → List Diag, List.flatMap f S = List.flatMap (fun p => f (p.1, (p.2.mapMag φ))) res := by
    intro f; rw [← hS, BMap.mapMag, List.flatMap_map]
  rw [h1]
  congr 1; funext p
  obtain ⟨k, it⟩ := p
  simp only [ResolvedItem.mapMag]
  simp only [Item.mapMag_annotation, Item.mapMag_ident]
  cases it.item.annotation with
  | none => rfl
  | some a =>
    simp only [hg]
    cases BMap.get res a with
    | none => rfl
    | some r => simp [ResolvedItem.mapMag, DM.mapMag]

theorem resolveItems_mapMag (l : List (Item E M)) :
    resolveItems (l.map (Item.mapMag φ)) = (resolveItems l).map fun p => ((p.1.mapMag φ), p.2) := by
  unfold resolveItems
  simp only [filterUndefined_mapMag, filterAutogenerated_mapMag, multiplyDefined_mapMag, checkKinds_mapMag]
  have := resolveLoop_mapMag (φ := φ) (filterAutogenerated (filterAutogenerated (filterAutogenerated (filterUndefined l).1))) []
  rw [show (BMap.mapMag φ) ([] : BMap (ResolvedItem E M)) = [] from rfl] at this
  rw [this]
  cases resolveLoop (filterAutogenerated (filterAutogenerated (filterAutogenerated (filterUndefined l).1))) [] with
  | none => rfl
  | some p => simp [checkAnnotations_mapMag]

theorem getDimensions_mapMag (res : BMap (ResolvedItem E M)) : getDimensions (res.mapMag φ) = getDimensions res := by
  unfold getDimensions
  rw [BMap.mapMag, List.filter_map]
  rw [mapM_map_option _ _ (fun r : Str × ResolvedItem E M => match r.2.item.type with | .dimension d => some (⟨d.name, r.2.dimensions.dims⟩ : DimensionDef E) | _ => none) id]
  · simp only [List.map_id_fun, Option.map_id_fun, id]
    congr 2
    funext p; simp [ResolvedItem.mapMag]
  · rintro ⟨k, ⟨⟨e, t⟩, d⟩⟩ _
    cases t <;> rfl

theorem getUnits_mapMag (res : BMap (ResolvedItem E M)) :
    getUnits (res.mapMag φ) = (getUnits res).map (List.map fun u => ⟨u.name, u.dims, φ u.mag, u.symbol, u.isBase⟩) := by
  unfold getUnits
  rw [BMap.mapMag, List.filter_map]
  rw [mapM_map_option _ _ (fun r : Str × ResolvedItem E M => match r.2.item.type with
    | .unit u => some (⟨u.name, r.2.dimensions.dims, r.2.dimensions.mag, u.symbol,
        match u.definition with | .base _ => true | .expression _ => false⟩ : UnitDef E M)
    | _ => none) (fun u => (⟨u.name, u.dims, φ u.mag, u.symbol, u.isBase⟩ : UnitDef E M'))]
  · congr 3
    funext p; simp [ResolvedItem.mapMag]
  · rintro ⟨k, ⟨⟨e, t⟩, d⟩⟩ _
    cases t with
    | unit u => obtain ⟨n, s, a, dd, g⟩ := u; cases dd <;> rfl
    | _ => rfl

theorem getConstants_mapMag (res : BMap (ResolvedItem E M)) :
    getConstants (res.mapMag φ) = (getConstants res).map (List.map fun c => ⟨c.name, c.dims, φ c.mag⟩) := by
  unfold getConstants
  rw [BMap.mapMag, List.filter_map]
  rw [mapM_map_option _ _ (fun r : Str × ResolvedItem E M => match r.2.item.type with
    | .constant c => some (⟨c.name, r.2.dimensions.dims, r.2.dimensions.mag⟩ : ConstantDef E M)
    | _ => none) (fun u => (⟨u.name, u.dims, φ u.mag⟩ : ConstantDef E M'))]
  · congr 3
    funext p; simp [ResolvedItem.mapMag]
  · rintro ⟨k, ⟨⟨e, t⟩, d⟩⟩ _
    cases t <;> rfl

theorem checkBaseUnits_mapMag (bd : List Str) (c : Str → Nat) (us : List (UnitEntry E M)) :
    checkBaseUnits bd c (us.map (UnitEntry.mapMag φ)) = checkBaseUnits bd c us := by
  induction us generalizing c with
  | nil => rfl
  | cons u us ih =>
    obtain ⟨n, s, a, d, g⟩ := u
    simp only [List.map_cons, checkBaseUnits, UnitEntry.mapMag]
    split
    · exact ih c
    · cases d with
      | base b => simp only [Definition.mapMag, ih]
      | expression e => simp only [Definition.mapMag, ih]

theorem checkSymbols_mapMag (us : List (UnitEntry E M)) : checkSymbols (us.map (UnitEntry.mapMag φ)) = checkSymbols us := by
  unfold checkSymbols
  have h1 : (us.map (UnitEntry.mapMag φ)).filterMap UnitEntry.symbol = us.filterMap UnitEntry.symbol := by
    rw [List.filterMap_map]; rfl
  simp only [h1, List.filter_map, List.map_map]
  rfl

theorem checkBaseSymbols_mapMag (us : List (UnitDef E M)) :
    checkBaseSymbols (us.map fun u => (⟨u.name, u.dims, φ u.mag, u.symbol, u.isBase⟩ : UnitDef E M')) = checkBaseSymbols us := by
  unfold checkBaseSymbols; rw [List.filterMap_map]; rfl

/-- Resolution commutes with forgetting the numbers. -/
theorem resolveDefs_mapMag (u : UnresolvedDefs E M) :
    resolveDefs (u.mapMag φ) = (resolveDefs u).map fun p => ((p.1.mapMag φ), p.2) := by
  unfold resolveDefs
  rw [allItems_mapMag, resolveItems_mapMag]
  have h1 : (u.mapMag φ).units = u.units.map (UnitEntry.mapMag φ) := rfl
  simp only [h1, checkBaseUnits_mapMag, checkSymbols_mapMag]
  cases resolveItems (allItems u) with
  | none => rfl
  | some p =>
    obtain ⟨res, ds⟩ := p
    simp only [Option.map_some, Option.bind_eq_bind, Option.bind_some, getDimensions_mapMag, getUnits_mapMag, getConstants_mapMag]
    cases getDimensions res with
    | none => rfl
    | some a =>
      cases getUnits res with
      | none => rfl
      | some b =>
        cases getConstants res with
        | none => rfl
        | some c =>
          simp only [Option.map_some, Option.bind_some, checkBaseSymbols_mapMag]
          rfl

theorem expand_mapMag (one : M) (factor : Prefix → M) (t : UnresolvedTemplates E M) :
    UnresolvedTemplates.expand (φ one) (φ ∘ factor) (t.mapMag φ) = ((UnresolvedTemplates.expand one factor t).mapMag φ) := by
  have h : ∀ u : UnitTemplate E M, (u.mapMag φ).expand (φ one) (φ ∘ factor) = (u.expand one factor).map (UnitEntry.mapMag φ) := by
    intro u
    unfold UnitTemplate.expand
    rw [List.map_flatMap]
    show List.flatMap _ (u.prefixes.map some ++ [none]) = _
    congr 1; funext pre
    rw [List.map_map]
    show List.map _ (u.aliases.map some ++ [none]) = _
    apply List.map_congr_left
    intro al _
    simp only [UnitTemplate.expandOne, UnitEntry.mapMag, Function.comp, UnitEntry.mk.injEq]
    refine ⟨?_, ?_, rfl, ?_, ?_⟩
    · rfl
    · rfl
    · simp only [UnitTemplate.getDefinition]
      split
      · rfl
      · cases pre <;> rfl
    · rfl
  simp only [UnresolvedTemplates.expand, UnresolvedTemplates.mapMag, UnresolvedDefs.mapMag, List.flatMap_map, h, List.map_flatMap]

/-- So does the whole front end. -/
theorem runUnitSystem_mapMag (factor : Prefix → M) (t : UnresolvedTemplates E M) :
    runUnitSystem (φ ∘ factor) (t.mapMag φ) = (runUnitSystem factor t).map fun p => ((p.1.mapMag φ), p.2) := by
  unfold runUnitSystem
  rw [← resolveDefs_mapMag, ← expand_mapMag, MagHom.one (E := E) (φ := φ)]

section read
variable [ReadExponent E]

theorem readExpr_mapMag {C : Type} (f : C → M) (e : Expr (Atom C) ExpSyn) :
    readExpr (E := E) (φ ∘ f) e = (readExpr f e).map (Expr.mapMag φ) := by
  unfold readExpr
  rw [Expr.mapExp_map, Expr.mapExp_map, Option.map_map]
  congr 1; funext e
  simp only [Function.comp, Expr.mapMag, Expr.map_map, Atom.mapConcrete_comp]

theorem readTemplates_mapMag (mag : Number → M) (t : UnresolvedTemplates ExpSyn Number) :
    readTemplates (E := E) (φ ∘ mag) t = (readTemplates mag t).map (UnresolvedTemplates.mapMag φ) := by
  unfold readTemplates
  have h1 := mapM_map_option id (g := fun u : UnitTemplate ExpSyn Number => (readDefinition (E := E) (φ ∘ mag) u.definition).map fun d =>
      ({ name := u.name, symbol := u.symbol, aliases := u.aliases, prefixes := u.prefixes, annotation := u.annotation, definition := d } : UnitTemplate E M'))
    (fun u => (readDefinition mag u.definition).map fun d =>
      ({ name := u.name, symbol := u.symbol, aliases := u.aliases, prefixes := u.prefixes, annotation := u.annotation, definition := d } : UnitTemplate E M))
    (UnitTemplate.mapMag φ) t.units (by
      intro u _
      obtain ⟨n, s, al, p, an, d⟩ := u
      cases d with
      | base b => rfl
      | expression e =>
        simp only [id, readDefinition, readExpr_mapMag (E := E) mag e]
        cases readExpr (E := E) mag e <;> rfl)
  have h2 := mapM_map_option id (g := fun c : ConstantEntry ExpSyn Number => (readExpr (E := E) (φ ∘ mag) c.rhs).map fun e =>
      (⟨c.name, e, c.annotation⟩ : ConstantEntry E M'))
    (fun c => (readExpr mag c.rhs).map fun e => (⟨c.name, e, c.annotation⟩ : ConstantEntry E M))
    (ConstantEntry.mapMag φ) t.constants (by
      intro u _
      simp only [id, readExpr_mapMag (E := E) mag u.rhs]
      cases readExpr (E := E) mag u.rhs <;> rfl)
  rw [List.map_id] at h1 h2
  rw [h1, h2]
  cases List.mapM (fun d : DimensionEntry ExpSyn => (readDefinition (E := E) id d.rhs).map (DimensionEntry.mk d.name)) t.dimensions with
  | none => rfl
  | some a =>
    simp only [Option.bind_eq_bind, Option.bind_some]
    cases List.mapM (fun u : UnitTemplate ExpSyn Number => (readDefinition mag u.definition).map fun d =>
      ({ name := u.name, symbol := u.symbol, aliases := u.aliases, prefixes := u.prefixes, annotation := u.annotation, definition := d } : UnitTemplate E M)) t.units with
    | none => rfl
    | some b =>
      simp only [Option.map_some, Option.bind_some]
      cases List.mapM (fun c : ConstantEntry ExpSyn Number => (readExpr mag c.rhs).map fun e => (⟨c.name, e, c.annotation⟩ : ConstantEntry E M)) t.constants with
      | none => rfl
      | some c => rfl
end read
end Diman
