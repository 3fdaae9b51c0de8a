import Verif.Spec.Shape
import Verif.Proofs.Resolve
/-! The resolver does not look at numbers: it commutes with forgetting them. -/
set_option linter.unusedSectionVars false
namespace Diman
variable {E M : Type} [Exponent E] [MagOps E M]

def DM.shape (d : DM E M) : DM E Unit := ⟨d.dims, ()⟩
def ItemType.shape : ItemType E M → ItemType E Unit
  | .dimension d => .dimension d
  | .unit u => .unit u.shape
  | .constant c => .constant c.shape
def Item.shape (i : Item E M) : Item E Unit := ⟨i.expr.map (Atom.mapConcrete DM.shape), i.type.shape⟩
def ResolvedItem.shape (r : ResolvedItem E M) : ResolvedItem E Unit := ⟨r.item.shape, r.dimensions.shape⟩
def BMap.shape (m : BMap (ResolvedItem E M)) : BMap (ResolvedItem E Unit) := m.map fun p => (p.1, p.2.shape)

theorem Atom.mapConcrete_comp {A B C : Type} (f : A → B) (g : B → C) :
    (Atom.mapConcrete g) ∘ (Atom.mapConcrete f) = Atom.mapConcrete (g ∘ f) := by
  funext a; cases a <;> rfl

@[simp] theorem Item.shape_kind (i : Item E M) : i.shape.kind = i.kind := by
  obtain ⟨e, t⟩ := i
  cases t with
  | dimension d => rfl
  | unit u => obtain ⟨n, s, a, d, g⟩ := u; cases d <;> rfl
  | constant c => rfl
@[simp] theorem Item.shape_ident (i : Item E M) : i.shape.ident = i.ident := by
  obtain ⟨e, t⟩ := i; cases t <;> rfl
@[simp] theorem Item.shape_annotation (i : Item E M) : i.shape.annotation = i.annotation := by
  obtain ⟨e, t⟩ := i; cases t <;> rfl
@[simp] theorem Item.shape_auto (i : Item E M) : i.shape.autogeneratedFrom = i.autogeneratedFrom := by
  obtain ⟨e, t⟩ := i; cases t <;> rfl
theorem Item.shape_vals (i : Item E M) : i.shape.expr.vals = i.expr.vals.map (Atom.mapConcrete DM.shape) := by
  simp [Item.shape, Expr.vals_map]
@[simp] theorem Item.shape_refs (i : Item E M) : i.shape.refs = i.refs := by
  unfold Item.refs
  rw [Item.shape_vals, List.filterMap_map]
  congr 1; funext a; cases a <;> rfl

theorem Item.shape_ofDimension (d : DimensionEntry E) : (Item.ofDimension (M := M) d).shape = Item.ofDimension d := by
  obtain ⟨n, r⟩ := d
  cases r with
  | base b => rfl
  | expression e =>
    simp only [Item.ofDimension, Item.shape, Expr.map_map, Atom.mapConcrete_comp]
    rfl
theorem Item.shape_ofUnit (d : UnitEntry E M) : (Item.ofUnit d).shape = Item.ofUnit d.shape := by
  obtain ⟨n, s, a, r, g⟩ := d
  cases r with
  | base b => rfl
  | expression e =>
    simp only [Item.ofUnit, Item.shape, UnitEntry.shape, Definition.shape, Expr.shape, Expr.map_map, Atom.mapConcrete_comp]
    rfl
theorem Item.shape_ofConstant (d : ConstantEntry E M) : (Item.ofConstant d).shape = Item.ofConstant d.shape := by
  obtain ⟨n, r, a⟩ := d
  simp only [Item.ofConstant, Item.shape, ConstantEntry.shape, Expr.shape, Expr.map_map, Atom.mapConcrete_comp]
  rfl

theorem allItems_shape (u : UnresolvedDefs E M) : allItems u.shape = (allItems u).map Item.shape := by
  simp only [allItems, UnresolvedDefs.shape, List.map_append, List.map_map]
  congr 1; congr 1
  · apply List.map_congr_left; intro d _; exact (Item.shape_ofDimension d).symm
  · apply List.map_congr_left; intro d _; exact (Item.shape_ofUnit d).symm
  · apply List.map_congr_left; intro d _; exact (Item.shape_ofConstant d).symm

theorem BMap.shape_get (m : BMap (ResolvedItem E M)) (k : Str) : BMap.get m.shape k = (BMap.get m k).map ResolvedItem.shape := by
  induction m with
  | nil => rfl
  | cons p m ih =>
    obtain ⟨k', v⟩ := p
    show BMap.get ((k', v.shape) :: BMap.shape m) k = _
    simp only [BMap.get]
    split
    · rfl
    · exact ih
theorem BMap.shape_insert (m : BMap (ResolvedItem E M)) (k : Str) (v : ResolvedItem E M) :
    (BMap.insert m k v).shape = BMap.insert m.shape k v.shape := by
  induction m with
  | nil => rfl
  | cons p m ih =>
    obtain ⟨k', v'⟩ := p
    show BMap.shape (BMap.insert ((k', v') :: m) k v) = BMap.insert ((k', v'.shape) :: BMap.shape m) k v.shape
    simp only [BMap.insert]
    split
    · rfl
    · split
      · rfl
      · rw [← ih]; rfl

theorem isResolvable_shape (res : BMap (ResolvedItem E M)) (i : Item E M) : isResolvable res.shape i.shape = isResolvable res i := by
  unfold isResolvable
  rw [Item.shape_vals, List.all_map]
  congr 1; funext a
  cases a with
  | concrete c => rfl
  | other x => simp [Atom.mapConcrete, BMap.contains, BMap.shape_get]

mutual
theorem Expr.mapM_map {T T2 T3 E : Type} (f : T → T2) (g : T2 → Option T3) (e : Expr T E) :
    (e.map f).mapM g = e.mapM (fun t => g (f t)) := by
  match e with
  | .value v => simp [Expr.map, Expr.mapM, Factor.mapM_map f g v]
  | .binary l o r => simp [Expr.map, Expr.mapM, Factor.mapM_map f g r, Expr.mapM_map f g l]
theorem Factor.mapM_map {T T2 T3 E : Type} (f : T → T2) (g : T2 → Option T3) (e : Factor T E) :
    (e.map f).mapM g = e.mapM (fun t => g (f t)) := by
  match e with
  | .value v => simp [Factor.map, Factor.mapM]
  | .power v x => simp [Factor.map, Factor.mapM]
  | .paren e => simp [Factor.map, Factor.mapM, Expr.mapM_map f g e]
end
mutual
theorem Expr.map_mapM {T T2 T3 E : Type} (f : T → Option T2) (g : T2 → T3) (e : Expr T E) :
    e.mapM (fun t => (f t).map g) = (e.mapM f).map (Expr.map g) := by
  match e with
  | .value v =>
    simp only [Expr.mapM, Factor.map_mapM f g v]
    cases v.mapM f <;> rfl
  | .binary l o r =>
    simp only [Expr.mapM, Factor.map_mapM f g r, Expr.map_mapM f g l]
    cases l.mapM f <;> cases r.mapM f <;> rfl
theorem Factor.map_mapM {T T2 T3 E : Type} (f : T → Option T2) (g : T2 → T3) (e : Factor T E) :
    e.mapM (fun t => (f t).map g) = (e.mapM f).map (Factor.map g) := by
  match e with
  | .value v => simp only [Factor.mapM]; cases f v <;> rfl
  | .power v x => simp only [Factor.mapM]; cases f v <;> rfl
  | .paren e =>
    simp only [Factor.mapM, Expr.map_mapM f g e]
    cases e.mapM f <;> rfl
end
mutual
theorem Expr.eval_shape (e : Expr (DM E M) E) : (e.map DM.shape).eval = (e.eval).map DM.shape := by
  match e with
  | .value v => simp [Expr.map, Expr.eval, Factor.eval_shape v]
  | .binary l o r =>
    simp only [Expr.map, Expr.eval, Factor.eval_shape r, Expr.eval_shape l]
    cases hl : l.eval with
    | none => rfl
    | some a =>
      cases hr : r.eval with
      | none => rfl
      | some b =>
        cases o with
        | mul =>
          show (do return (⟨← a.dims.mul b.dims, ()⟩ : DM E Unit)) = Option.map DM.shape (do return ⟨← a.dims.mul b.dims, MagOps.mul E a.mag b.mag⟩)
          cases a.dims.mul b.dims <;> rfl
        | div =>
          show (do return (⟨← a.dims.div b.dims, ()⟩ : DM E Unit)) = Option.map DM.shape (do return ⟨← a.dims.div b.dims, MagOps.div E a.mag b.mag⟩)
          cases a.dims.div b.dims <;> rfl
theorem Factor.eval_shape (e : Factor (DM E M) E) : (e.map DM.shape).eval = (e.eval).map DM.shape := by
  match e with
  | .value v => rfl
  | .power v x =>
    show (do return (⟨← v.dims.pow x, ()⟩ : DM E Unit)) = Option.map DM.shape (do return ⟨← v.dims.pow x, MagOps.pow v.mag x⟩)
    cases v.dims.pow x <;> rfl
  | .paren e => simp [Factor.map, Factor.eval, Expr.eval_shape e]
end

theorem resolveDimensions_shape (res : BMap (ResolvedItem E M)) (i : Item E M) :
    resolveDimensions res.shape i.shape = (resolveDimensions res i).map DM.shape := by
  rw [resolveDimensions_def, resolveDimensions_def]
  have : i.shape.expr.mapM (leafOf res.shape) = (i.expr.mapM (leafOf res)).map (Expr.map DM.shape) := by
    rw [← Expr.map_mapM, Item.shape, Expr.mapM_map]
    congr 1; funext a
    cases a with
    | concrete c => rfl
    | other x =>
      simp only [Atom.mapConcrete, leafOf, BMap.shape_get, Option.map_map]
      rfl
  rw [this]
  cases i.expr.mapM (leafOf res) with
  | none => rfl
  | some e => exact Expr.eval_shape e

theorem takeResolvable_shape (res : BMap (ResolvedItem E M)) (l : List (Item E M)) :
    takeResolvable res.shape (l.map Item.shape) =
      (takeResolvable res l).map fun p => (p.1.shape, p.2.map Item.shape) := by
  induction l with
  | nil => rfl
  | cons x l ih =>
    simp only [List.map_cons, takeResolvable, isResolvable_shape]
    split
    · rfl
    · rw [ih]; cases takeResolvable res l <;> rfl

theorem resolveLoop_shape (l : List (Item E M)) (res : BMap (ResolvedItem E M)) :
    resolveLoop (l.map Item.shape) res.shape = (resolveLoop l res).map fun p => (p.1.shape, p.2) := by
  obtain ⟨n, hn⟩ : ∃ n, l.length = n := ⟨_, rfl⟩
  induction n generalizing l res with
  | zero =>
    have : l = [] := List.eq_nil_of_length_eq_zero hn
    subst this
    rw [resolveLoop, resolveLoop]; rfl
  | succ n ih =>
    rw [resolveLoop, resolveLoop]
    have he : (l.map Item.shape).isEmpty = l.isEmpty := by cases l <;> rfl
    rw [he]
    cases hl : l.isEmpty with
    | true => simp
    | false =>
      simp only [Bool.false_eq_true, if_false]
      have hts := takeResolvable_shape res l
      split
      · rename_i x rest ht
        rw [ht] at hts
        cases ht' : takeResolvable res l with
        | none => rw [ht'] at hts; simp at hts
        | some p =>
          obtain ⟨x', rest'⟩ := p
          rw [ht'] at hts
          simp only [Option.map_some, Option.some.injEq, Prod.mk.injEq] at hts
          obtain ⟨rfl, rfl⟩ := hts
          simp only
          rw [resolveDimensions_shape]
          cases resolveDimensions res x' with
          | none => rfl
          | some d =>
            simp only [Option.map_some, Option.bind_eq_bind, Option.bind_some, Item.shape_ident]
            have := ih rest' (res.insert x'.ident ⟨x', d⟩) (by have := takeResolvable_length ht'; omega)
            rw [← this, BMap.shape_insert]; rfl
      · rename_i ht
        rw [ht] at hts
        cases ht' : takeResolvable res l with
        | some p => rw [ht'] at hts; simp at hts
        | none => simp [Function.comp_def]

theorem ids_shape (l : List (Item E M)) : (l.map Item.shape).map Item.ident = l.map Item.ident := by
  simp [Function.comp_def]

theorem filterAutogenerated_shape (l : List (Item E M)) :
    filterAutogenerated (l.map Item.shape) = (filterAutogenerated l).map Item.shape := by
  unfold filterAutogenerated
  rw [List.filter_map]
  congr 1
  simp [unresolvedIdents, Function.comp_def]

theorem filterUndefined_shape (l : List (Item E M)) :
    filterUndefined (l.map Item.shape) = ((filterUndefined l).1.map Item.shape, (filterUndefined l).2) := by
  have hf : ∀ defined, (firstUndefined defined ∘ Item.shape : Item E M → _) = firstUndefined defined := by
    intro d; funext i; simp [firstUndefined]
  unfold filterUndefined
  simp only [unresolvedIdents, ids_shape, List.filterMap_map, hf, List.filter_map]
  congr 1
  congr 1
  simp [Function.comp_def, firstUndefined]

theorem multiplyDefined_shape (l : List (Item E M)) : multiplyDefined (l.map Item.shape) = multiplyDefined l := by
  unfold multiplyDefined; simp only [ids_shape]

theorem kindOf_shape (l : List (Item E M)) (x : Str) : kindOf (l.map Item.shape) x = kindOf l x := by
  unfold kindOf
  rw [← List.map_reverse, List.find?_map]
  simp [Function.comp_def]

theorem checkKinds_shape (l : List (Item E M)) : checkKinds (l.map Item.shape) = checkKinds l := by
  unfold checkKinds
  rw [List.flatMap_map]
  simp only [Item.shape_refs, kindOf_shape, Item.shape_kind, Item.shape_ident]

theorem checkAnnotations_shape (res : BMap (ResolvedItem E M)) : checkAnnotations res.shape = checkAnnotations res := by
  unfold checkAnnotations
  have hg := BMap.shape_get res
  generalize hS : BMap.shape res = S at hg
  have h1 : ∀ f : Str × ResolvedItem E Unit → List Diag, List.flatMap f S = List.flatMap (fun p => f (p.1, p.2.shape)) res := by
    intro f; rw [← hS, BMap.shape, List.flatMap_map]
  rw [h1]
  congr 1; funext p
  obtain ⟨k, it⟩ := p
  simp only [ResolvedItem.shape]
  simp only [Item.shape_annotation, Item.shape_ident]
  cases it.item.annotation with
  | none => rfl
  | some a =>
    simp only [hg]
    cases BMap.get res a with
    | none => rfl
    | some r => simp [ResolvedItem.shape, DM.shape]

theorem resolveItems_shape (l : List (Item E M)) :
    resolveItems (l.map Item.shape) = (resolveItems l).map fun p => (p.1.shape, p.2) := by
  unfold resolveItems
  simp only [filterUndefined_shape, filterAutogenerated_shape, multiplyDefined_shape, checkKinds_shape]
  have := resolveLoop_shape (filterAutogenerated (filterAutogenerated (filterAutogenerated (filterUndefined l).1))) []
  rw [show BMap.shape ([] : BMap (ResolvedItem E M)) = [] from rfl] at this
  rw [this]
  cases resolveLoop (filterAutogenerated (filterAutogenerated (filterAutogenerated (filterUndefined l).1))) [] with
  | none => rfl
  | some p => simp [checkAnnotations_shape]

theorem mapM_map_option {α β γ δ : Type} (f : α → β) (g : β → Option γ) (g' : α → Option δ) (h : δ → γ) (l : List α)
    (hg : ∀ a ∈ l, g (f a) = (g' a).map h) : (l.map f).mapM g = (l.mapM g').map (List.map h) := by
  induction l with
  | nil => rfl
  | cons a l ih =>
    have h1 := hg a (by simp)
    have h2 := ih fun a ha => hg a (by simp [ha])
    simp only [List.map_cons, List.mapM_cons, h1, h2]
    cases g' a <;> cases l.mapM g' <;> rfl

theorem getDimensions_shape (res : BMap (ResolvedItem E M)) : getDimensions res.shape = getDimensions res := by
  unfold getDimensions
  rw [BMap.shape, List.filter_map]
  rw [mapM_map_option _ _ (fun r : Str × ResolvedItem E M => match r.2.item.type with | .dimension d => some (⟨d.name, r.2.dimensions.dims⟩ : DimensionDef E) | _ => none) id]
  · simp only [List.map_id_fun, Option.map_id_fun, id]
    congr 2
    funext p; simp [ResolvedItem.shape]
  · rintro ⟨k, ⟨⟨e, t⟩, d⟩⟩ _
    cases t <;> rfl

theorem getUnits_shape (res : BMap (ResolvedItem E M)) :
    getUnits res.shape = (getUnits res).map (List.map fun u => ⟨u.name, u.dims, (), u.symbol, u.isBase⟩) := by
  unfold getUnits
  rw [BMap.shape, List.filter_map]
  rw [mapM_map_option _ _ (fun r : Str × ResolvedItem E M => match r.2.item.type with
    | .unit u => some (⟨u.name, r.2.dimensions.dims, r.2.dimensions.mag, u.symbol,
        match u.definition with | .base _ => true | .expression _ => false⟩ : UnitDef E M)
    | _ => none) (fun u => (⟨u.name, u.dims, (), u.symbol, u.isBase⟩ : UnitDef E Unit))]
  · congr 3
    funext p; simp [ResolvedItem.shape]
  · rintro ⟨k, ⟨⟨e, t⟩, d⟩⟩ _
    cases t with
    | unit u => obtain ⟨n, s, a, dd, g⟩ := u; cases dd <;> rfl
    | _ => rfl

theorem getConstants_shape (res : BMap (ResolvedItem E M)) :
    getConstants res.shape = (getConstants res).map (List.map fun c => ⟨c.name, c.dims, ()⟩) := by
  unfold getConstants
  rw [BMap.shape, List.filter_map]
  rw [mapM_map_option _ _ (fun r : Str × ResolvedItem E M => match r.2.item.type with
    | .constant c => some (⟨c.name, r.2.dimensions.dims, r.2.dimensions.mag⟩ : ConstantDef E M)
    | _ => none) (fun u => (⟨u.name, u.dims, ()⟩ : ConstantDef E Unit))]
  · congr 3
    funext p; simp [ResolvedItem.shape]
  · rintro ⟨k, ⟨⟨e, t⟩, d⟩⟩ _
    cases t <;> rfl

theorem checkBaseUnits_shape (bd : List Str) (c : Str → Nat) (us : List (UnitEntry E M)) :
    checkBaseUnits bd c (us.map UnitEntry.shape) = checkBaseUnits bd c us := by
  induction us generalizing c with
  | nil => rfl
  | cons u us ih =>
    obtain ⟨n, s, a, d, g⟩ := u
    simp only [List.map_cons, checkBaseUnits, UnitEntry.shape]
    split
    · exact ih c
    · cases d with
      | base b => simp only [Definition.shape, ih]
      | expression e => simp only [Definition.shape, ih]

theorem checkSymbols_shape (us : List (UnitEntry E M)) : checkSymbols (us.map UnitEntry.shape) = checkSymbols us := by
  unfold checkSymbols
  have h1 : (us.map UnitEntry.shape).filterMap UnitEntry.symbol = us.filterMap UnitEntry.symbol := by
    rw [List.filterMap_map]; rfl
  simp only [h1, List.filter_map, List.map_map]
  rfl

theorem checkBaseSymbols_shape (us : List (UnitDef E M)) :
    checkBaseSymbols (us.map fun u => (⟨u.name, u.dims, (), u.symbol, u.isBase⟩ : UnitDef E Unit)) = checkBaseSymbols us := by
  unfold checkBaseSymbols; rw [List.filterMap_map]; rfl

/-- Resolution commutes with forgetting the numbers. -/
theorem resolveDefs_shape (u : UnresolvedDefs E M) :
    resolveDefs u.shape = (resolveDefs u).map fun p => (p.1.shape, p.2) := by
  unfold resolveDefs
  rw [allItems_shape, resolveItems_shape]
  have h1 : u.shape.units = u.units.map UnitEntry.shape := rfl
  simp only [h1, checkBaseUnits_shape, checkSymbols_shape]
  cases resolveItems (allItems u) with
  | none => rfl
  | some p =>
    obtain ⟨res, ds⟩ := p
    simp only [Option.map_some, Option.bind_eq_bind, Option.bind_some, getDimensions_shape, getUnits_shape, getConstants_shape]
    cases getDimensions res with
    | none => rfl
    | some a =>
      cases getUnits res with
      | none => rfl
      | some b =>
        cases getConstants res with
        | none => rfl
        | some c =>
          simp only [Option.map_some, Option.bind_some, checkBaseSymbols_shape]
          rfl

theorem expand_shape (one : M) (factor : Prefix → M) (t : UnresolvedTemplates E M) :
    UnresolvedTemplates.expand () (fun _ => ()) t.shape = (UnresolvedTemplates.expand one factor t).shape := by
  have h : ∀ u : UnitTemplate E M, u.shape.expand () (fun _ => ()) = (u.expand one factor).map UnitEntry.shape := by
    intro u
    unfold UnitTemplate.expand
    rw [List.map_flatMap]
    show List.flatMap _ (u.prefixes.map some ++ [none]) = _
    congr 1; funext pre
    rw [List.map_map]
    show List.map _ (u.aliases.map some ++ [none]) = _
    apply List.map_congr_left
    intro al _
    simp only [UnitTemplate.expandOne, UnitEntry.shape, Function.comp, UnitEntry.mk.injEq]
    refine ⟨?_, ?_, rfl, ?_, ?_⟩
    · rfl
    · rfl
    · simp only [UnitTemplate.getDefinition]
      split
      · rfl
      · cases pre <;> rfl
    · rfl
  simp only [UnresolvedTemplates.expand, UnresolvedTemplates.shape, UnresolvedDefs.shape, List.flatMap_map, h, List.map_flatMap]

/-- So does the whole front end. -/
theorem runUnitSystem_shape (factor : Prefix → M) (t : UnresolvedTemplates E M) :
    runUnitSystem (fun _ => ()) t.shape = (runUnitSystem factor t).map fun p => (p.1.shape, p.2) := by
  unfold runUnitSystem
  rw [← resolveDefs_shape]
  exact congrArg resolveDefs (expand_shape _ _ t)

section read
variable [ReadExponent E]

mutual
theorem Expr.mapExp_map {T T2 E E2 : Type} (f : T → T2) (g : E → Option E2) (e : Expr T E) :
    (e.map f).mapExp g = (e.mapExp g).map (Expr.map f) := by
  match e with
  | .value v =>
    simp only [Expr.map, Expr.mapExp, Factor.mapExp_map f g v]
    cases v.mapExp g <;> rfl
  | .binary l o r =>
    simp only [Expr.map, Expr.mapExp, Factor.mapExp_map f g r, Expr.mapExp_map f g l]
    cases l.mapExp g <;> cases r.mapExp g <;> rfl
theorem Factor.mapExp_map {T T2 E E2 : Type} (f : T → T2) (g : E → Option E2) (e : Factor T E) :
    (e.map f).mapExp g = (e.mapExp g).map (Factor.map f) := by
  match e with
  | .value v => rfl
  | .power v x => simp only [Factor.map, Factor.mapExp]; cases g x <;> rfl
  | .paren e =>
    simp only [Factor.map, Factor.mapExp, Expr.mapExp_map f g e]
    cases e.mapExp g <;> rfl
end

theorem readExpr_shape {C D : Type} (f : C → D) (e : Expr (Atom C) ExpSyn) :
    readExpr (E := E) (fun _ => ()) e = (readExpr f e).map Expr.shape := by
  unfold readExpr
  rw [Expr.mapExp_map, Expr.mapExp_map, Option.map_map]
  congr 1; funext e
  simp only [Function.comp, Expr.shape, Expr.map_map, Atom.mapConcrete_comp]

theorem readTemplates_shape (mag : Number → M) (t : UnresolvedTemplates ExpSyn Number) :
    readTemplates (E := E) (fun _ => ()) t = (readTemplates mag t).map UnresolvedTemplates.shape := by
  unfold readTemplates
  have h1 := mapM_map_option id (g := fun u : UnitTemplate ExpSyn Number => (readDefinition (E := E) (fun _ => ()) u.definition).map fun d =>
      ({ name := u.name, symbol := u.symbol, aliases := u.aliases, prefixes := u.prefixes, annotation := u.annotation, definition := d } : UnitTemplate E Unit))
    (fun u => (readDefinition mag u.definition).map fun d =>
      ({ name := u.name, symbol := u.symbol, aliases := u.aliases, prefixes := u.prefixes, annotation := u.annotation, definition := d } : UnitTemplate E M))
    UnitTemplate.shape t.units (by
      intro u _
      obtain ⟨n, s, al, p, an, d⟩ := u
      cases d with
      | base b => rfl
      | expression e =>
        simp only [id, readDefinition, readExpr_shape (E := E) mag e]
        cases readExpr (E := E) mag e <;> rfl)
  have h2 := mapM_map_option id (g := fun c : ConstantEntry ExpSyn Number => (readExpr (E := E) (fun _ => ()) c.rhs).map fun e =>
      (⟨c.name, e, c.annotation⟩ : ConstantEntry E Unit))
    (fun c => (readExpr mag c.rhs).map fun e => (⟨c.name, e, c.annotation⟩ : ConstantEntry E M))
    ConstantEntry.shape t.constants (by
      intro u _
      simp only [id, readExpr_shape (E := E) mag u.rhs]
      cases readExpr (E := E) mag u.rhs <;> rfl)
  rw [List.map_id] at h1 h2
  rw [h1, h2]
  cases List.mapM (fun d : DimensionEntry ExpSyn => (readDefinition (E := E) id d.rhs).map (DimensionEntry.mk d.name)) t.dimensions with
  | none => rfl
  | some a =>
    simp only [Option.bind_eq_bind, Option.bind_some]
    cases List.mapM (fun u : UnitTemplate ExpSyn Number => (readDefinition mag u.definition).map fun d =>
      ({ name := u.name, symbol := u.symbol, aliases := u.aliases, prefixes := u.prefixes, annotation := u.annotation, definition := d } : UnitTemplate E M)) t.units with
    | none => rfl
    | some b =>
      simp only [Option.map_some, Option.bind_some]
      cases List.mapM (fun c : ConstantEntry ExpSyn Number => (readExpr mag c.rhs).map fun e => (⟨c.name, e, c.annotation⟩ : ConstantEntry E M)) t.constants with
      | none => rfl
      | some c => rfl
end read
end Diman
