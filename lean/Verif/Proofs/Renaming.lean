import Verif.Spec.Renaming
import Verif.Proofs.Expand
import Verif.Proofs.Shape
/-! The resolver commutes with consistent renaming. -/
set_option linter.unusedSectionVars false
namespace Diman
variable {E M : Type} [Exponent E] [MagOps E M] {ρ σ : Str → Str}

/-! ### Exponents -/
theorem Dims.rename_get (hσ : Function.Injective σ) (d : Dims E) (k : Str) : (d.rename σ).get (σ k) = d.get k := by
  induction d with
  | nil => rfl
  | cons p d ih =>
    simp only [Dims.rename, List.map_cons, Dims.get] at ih ⊢
    simp only [hσ.eq_iff, ih]

theorem Dims.rename_addEntry (hσ : Function.Injective σ) (d : Dims E) (k : Str) (v : E) :
    (d.rename σ).addEntry (σ k) v = (d.addEntry k v).map (Dims.rename σ) := by
  induction d with
  | nil => rfl
  | cons p d ih =>
    simp only [Dims.rename, List.map_cons, Dims.addEntry] at ih ⊢
    simp only [hσ.eq_iff]
    split
    · cases Exponent.add p.2 v <;> rfl
    · rw [ih]; cases Dims.addEntry d k v <;> rfl

theorem Dims.rename_mul (hσ : Function.Injective σ) (a b : Dims E) : (a.rename σ).mul (b.rename σ) = (a.mul b).map (Dims.rename σ) := by
  induction b generalizing a with
  | nil => rfl
  | cons p b ih =>
    show (do Dims.mul (← (a.rename σ).addEntry (σ p.1) p.2) (Dims.rename σ b)) = _
    rw [Dims.rename_addEntry hσ]
    simp only [Dims.mul]
    cases a.addEntry p.1 p.2 with
    | none => rfl
    | some c => exact ih c

theorem Dims.rename_inv (a : Dims E) : (a.rename σ).inv = a.inv.map (Dims.rename σ) := by
  induction a with
  | nil => rfl
  | cons p a ih =>
    show (do return (σ p.1, ← Exponent.neg p.2) :: (← Dims.inv (Dims.rename σ a))) = _
    rw [ih]
    simp only [Dims.inv]
    cases Exponent.neg p.2 with
    | none => rfl
    | some x => cases Dims.inv a <;> rfl

theorem Dims.rename_div (hσ : Function.Injective σ) (a b : Dims E) : (a.rename σ).div (b.rename σ) = (a.div b).map (Dims.rename σ) := by
  unfold Dims.div
  rw [Dims.rename_inv]
  cases b.inv with
  | none => rfl
  | some c => exact Dims.rename_mul hσ a c

theorem Dims.rename_pow (a : Dims E) (q : E) : (a.rename σ).pow q = (a.pow q).map (Dims.rename σ) := by
  induction a with
  | nil => rfl
  | cons p a ih =>
    show (do return (σ p.1, ← Exponent.mul p.2 q) :: (← Dims.pow q (Dims.rename σ a))) = _
    rw [ih]
    simp only [Dims.pow]
    cases Exponent.mul p.2 q with
    | none => rfl
    | some x => cases Dims.pow q a <;> rfl

theorem Dims.rename_eq (hσ : Function.Injective σ) (a b : Dims E) : (a.rename σ).eq (b.rename σ) = a.eq b := by
  unfold Dims.eq
  rw [Dims.rename, List.all_map]
  congr 1; funext kv
  simp only [Function.comp, Dims.rename_get hσ]

def DM.rename (σ : Str → Str) (d : DM E M) : DM E M := ⟨d.dims.rename σ, d.mag⟩

mutual
theorem Expr.eval_rename (hσ : Function.Injective σ) (e : Expr (DM E M) E) : (e.map (DM.rename σ)).eval = (e.eval).map (DM.rename σ) := by
  match e with
  | .value v => simp [Expr.map, Expr.eval, Factor.eval_rename hσ v]
  | .binary l o r =>
    simp only [Expr.map, Expr.eval, Factor.eval_rename hσ r, Expr.eval_rename hσ l]
    cases hl : l.eval with
    | none => rfl
    | some a =>
      cases hr : r.eval with
      | none => rfl
      | some b =>
        cases o with
        | mul =>
          show (do return (⟨← (a.dims.rename σ).mul (b.dims.rename σ), MagOps.mul E a.mag b.mag⟩ : DM E M)) = Option.map (DM.rename σ) (do return ⟨← a.dims.mul b.dims, MagOps.mul E a.mag b.mag⟩)
          rw [Dims.rename_mul hσ]; cases a.dims.mul b.dims <;> rfl
        | div =>
          show (do return (⟨← (a.dims.rename σ).div (b.dims.rename σ), MagOps.div E a.mag b.mag⟩ : DM E M)) = Option.map (DM.rename σ) (do return ⟨← a.dims.div b.dims, MagOps.div E a.mag b.mag⟩)
          rw [Dims.rename_div hσ]; cases a.dims.div b.dims <;> rfl
theorem Factor.eval_rename (hσ : Function.Injective σ) (e : Factor (DM E M) E) : (e.map (DM.rename σ)).eval = (e.eval).map (DM.rename σ) := by
  match e with
  | .value v => rfl
  | .power v x =>
    show (do return (⟨← (v.dims.rename σ).pow x, MagOps.pow v.mag x⟩ : DM E M)) = Option.map (DM.rename σ) (do return ⟨← v.dims.pow x, MagOps.pow v.mag x⟩)
    rw [Dims.rename_pow]; cases v.dims.pow x <;> rfl
  | .paren e => simp [Factor.map, Factor.eval, Expr.eval_rename hσ e]
end

/-! ### Items -/
def UnitEntry.rename (ρ : Str → Str) (u : UnitEntry E M) : UnitEntry E M :=
  { name := ρ u.name, symbol := u.symbol, annotation := u.annotation.map ρ, definition := u.definition.rename ρ ρ
    autogeneratedFrom := u.autogeneratedFrom.map ρ }
def UnresolvedDefs.rename (ρ : Str → Str) (t : UnresolvedDefs E M) : UnresolvedDefs E M :=
  { dimensionTypes := t.dimensionTypes, quantityTypes := t.quantityTypes
    dimensions := t.dimensions.map (DimensionEntry.rename ρ)
    units := t.units.map (UnitEntry.rename ρ)
    constants := t.constants.map (ConstantEntry.rename ρ) }
def ItemType.rename (ρ : Str → Str) : ItemType E M → ItemType E M
  | .dimension d => .dimension (d.rename ρ)
  | .unit u => .unit (u.rename ρ)
  | .constant c => .constant (c.rename ρ)
def Atom.renameDM (ρ σ : Str → Str) : Atom (DM E M) → Atom (DM E M)
  | .concrete c => .concrete (c.rename σ)
  | .other x => .other (ρ x)
def Item.rename (ρ σ : Str → Str) (i : Item E M) : Item E M := ⟨i.expr.map (Atom.renameDM ρ σ), i.type.rename ρ⟩
def ResolvedItem.rename (ρ σ : Str → Str) (r : ResolvedItem E M) : ResolvedItem E M := ⟨r.item.rename ρ σ, r.dimensions.rename σ⟩

@[simp] theorem Item.rename_kind (i : Item E M) : (i.rename ρ σ).kind = i.kind := by
  obtain ⟨e, t⟩ := i
  cases t with
  | dimension d => rfl
  | unit u => obtain ⟨n, s, a, d, g⟩ := u; cases d <;> rfl
  | constant c => rfl
@[simp] theorem Item.rename_ident (i : Item E M) : (i.rename ρ σ).ident = ρ i.ident := by
  obtain ⟨e, t⟩ := i; cases t <;> rfl
@[simp] theorem Item.rename_annotation (i : Item E M) : (i.rename ρ σ).annotation = i.annotation.map ρ := by
  obtain ⟨e, t⟩ := i; cases t <;> rfl
@[simp] theorem Item.rename_refs (i : Item E M) : (i.rename ρ σ).refs = i.refs.map ρ := by
  unfold Item.refs
  rw [Item.rename, Expr.vals_map, List.filterMap_map, List.map_filterMap]
  congr 1; funext a; cases a <;> rfl

theorem Item.rename_ofDimension (d : DimensionEntry E) (hd : d.isBase = true → toSnakecase (ρ d.name) = σ (toSnakecase d.name)) :
    ((Item.ofDimension (M := M) d).rename ρ σ) = Item.ofDimension (d.rename ρ) := by
  obtain ⟨n, r⟩ := d
  cases r with
  | base b =>
    have := hd rfl
    simp only at this
    simp [Item.ofDimension, Item.rename, Expr.map, Factor.map, Atom.renameDM, ItemType.rename, DimensionEntry.rename,
      Definition.rename, DM.rename, DM.dimensions, Dims.rename, this]
  | expression e =>
    simp only [Item.ofDimension, Item.rename, DimensionEntry.rename, Definition.rename, Expr.map_map, ItemType.rename]
    congr 2; funext a; cases a <;> rfl
theorem Item.rename_ofUnit (d : UnitEntry E M) : ((Item.ofUnit d).rename ρ σ) = Item.ofUnit (d.rename ρ) := by
  obtain ⟨n, s, a, r, g⟩ := d
  cases r with
  | base b => rfl
  | expression e =>
    simp only [Item.ofUnit, Item.rename, UnitEntry.rename, Definition.rename, Expr.map_map, ItemType.rename]
    congr 2; funext a; cases a <;> rfl
theorem Item.rename_ofConstant (d : ConstantEntry E M) : ((Item.ofConstant d).rename ρ σ) = Item.ofConstant (d.rename ρ) := by
  obtain ⟨n, r, a⟩ := d
  simp only [Item.ofConstant, Item.rename, ConstantEntry.rename, Expr.map_map, ItemType.rename]
  congr 2; funext a; cases a <;> rfl

/-- `σ` is what `ρ` does to the base dimensions. -/
def UnresolvedDefs.Fits (ρ σ : Str → Str) (u : UnresolvedDefs E M) : Prop :=
  ∀ d ∈ u.dimensions, d.isBase = true → toSnakecase (ρ d.name) = σ (toSnakecase d.name)

theorem allItems_rename {u : UnresolvedDefs E M} (hu : u.Fits ρ σ) : allItems (u.rename ρ) = (allItems u).map (Item.rename ρ σ) := by
  simp only [allItems, UnresolvedDefs.rename, List.map_append, List.map_map]
  congr 1; congr 1
  · apply List.map_congr_left; intro d hd; exact (Item.rename_ofDimension d (hu d hd)).symm
  · apply List.map_congr_left; intro d _; exact (Item.rename_ofUnit d).symm
  · apply List.map_congr_left; intro d _; exact (Item.rename_ofConstant d).symm

/-! ### The map of resolved items -/
def BMap.rename (ρ σ : Str → Str) (m : BMap (ResolvedItem E M)) : BMap (ResolvedItem E M) :=
  m.foldr (fun p n => BMap.insert n (ρ p.1) (p.2.rename ρ σ)) []

theorem BMap.rename_sorted (m : BMap (ResolvedItem E M)) : (m.rename ρ σ).Sorted := by
  induction m with
  | nil => exact BMap.sorted_nil
  | cons p m ih => exact BMap.sorted_insert ih _ _

theorem BMap.rename_get (hρ : Function.Injective ρ) (m : BMap (ResolvedItem E M)) (k : Str) :
    (m.rename ρ σ).get (ρ k) = (m.get k).map (ResolvedItem.rename ρ σ) := by
  induction m with
  | nil => rfl
  | cons p m ih =>
    show (BMap.insert (BMap.rename ρ σ m) (ρ p.1) (p.2.rename ρ σ)).get (ρ k) = _
    rw [BMap.get_insert, ih]
    simp only [BMap.get, hρ.eq_iff]
    split <;> rfl

theorem BMap.rename_from (m : BMap (ResolvedItem E M)) {k r} (h : (m.rename ρ σ).get k = some r) : ∃ k', k = ρ k' := by
  induction m with
  | nil => simp [BMap.rename, BMap.get] at h
  | cons p m ih =>
    have h : (BMap.insert (BMap.rename ρ σ m) (ρ p.1) (p.2.rename ρ σ)).get k = some r := h
    rw [BMap.get_insert] at h
    split at h
    · rename_i e; exact ⟨p.1, by simp_all⟩
    · exact ih h

theorem resolveDimensions_rename (hρ : Function.Injective ρ) (hσ : Function.Injective σ) (res : BMap (ResolvedItem E M)) (i : Item E M) :
    resolveDimensions (res.rename ρ σ) (i.rename ρ σ) = (resolveDimensions res i).map (DM.rename σ) := by
  rw [resolveDimensions_def, resolveDimensions_def]
  have : (i.rename ρ σ).expr.mapM (leafOf (res.rename ρ σ)) = (i.expr.mapM (leafOf res)).map (Expr.map (DM.rename σ)) := by
    rw [← Expr.map_mapM, Item.rename, Expr.mapM_map]
    congr 1; funext a
    cases a with
    | concrete c => rfl
    | other x =>
      simp only [Atom.renameDM, leafOf, BMap.rename_get hρ, Option.map_map]
      rfl
  rw [this]
  cases i.expr.mapM (leafOf res) with
  | none => rfl
  | some e => exact Expr.eval_rename hσ e

theorem Solution.rename (hρ : Function.Injective ρ) (hσ : Function.Injective σ) {l : List (Item E M)} {res : BMap (ResolvedItem E M)}
    (h : Solution l res) : Solution (l.map (Item.rename ρ σ)) (res.rename ρ σ) where
  sorted := BMap.rename_sorted res
  eqn i hi := by
    obtain ⟨j, hj, rfl⟩ := List.mem_map.1 hi
    obtain ⟨d, h1, h2⟩ := h.eqn j hj
    refine ⟨d.rename σ, ?_, ?_⟩
    · rw [Item.rename_ident, BMap.rename_get hρ, h1]; rfl
    · rw [resolveDimensions_rename hρ hσ, h2]; rfl
  only k r hk := by
    obtain ⟨k', rfl⟩ := BMap.rename_from res hk
    rw [BMap.rename_get hρ, Option.map_eq_some_iff] at hk
    obtain ⟨r', h1, rfl⟩ := hk
    obtain ⟨h2, rfl⟩ := h.only k' r' h1
    exact ⟨List.mem_map_of_mem h2, Item.rename_ident _⟩

theorem checkAnnotations_rename (hρ : Function.Injective ρ) (hσ : Function.Injective σ) {res : BMap (ResolvedItem E M)} (hs : res.Sorted)
    (h : checkAnnotations res = []) : checkAnnotations (res.rename ρ σ) = [] := by
  unfold checkAnnotations at h ⊢
  rw [List.flatMap_eq_nil_iff] at h ⊢
  rintro ⟨k, r⟩ hm
  have hg := (BMap.mem_iff_get (BMap.rename_sorted res)).1 hm
  obtain ⟨k', rfl⟩ := BMap.rename_from res hg
  rw [BMap.rename_get hρ, Option.map_eq_some_iff] at hg
  obtain ⟨r', h1, rfl⟩ := hg
  have := h (k', r') ((BMap.mem_iff_get hs).2 h1)
  simp only [ResolvedItem.rename, Item.rename_annotation] at this ⊢
  cases ha : r'.item.annotation with
  | none => rfl
  | some a =>
    simp only [ha, Option.map_some, BMap.rename_get hρ] at this ⊢
    cases hr : res.get a with
    | none => simp [hr] at this
    | some ann =>
      simp only [hr, Option.map_some, ResolvedItem.rename, Item.rename_kind, DM.rename, Dims.rename_eq hσ] at this ⊢
      split at this
      · cases this
      · rename_i h1
        split at this
        · cases this
        · rename_i h2; rw [if_neg h1, if_neg h2]

/-! ### The statements -/
mutual
theorem Expr.idents_rename {C : Type} (e : Expr (Atom C) E) : (e.map (Atom.rename ρ)).idents = e.idents.map ρ := by
  match e with
  | .value f => simp [Expr.map, Expr.idents, Factor.idents_rename f]
  | .binary l o r => simp [Expr.map, Expr.idents, Factor.idents_rename r, Expr.idents_rename l]
theorem Factor.idents_rename {C : Type} (e : Factor (Atom C) E) : (e.map (Atom.rename ρ)).idents = e.idents.map ρ := by
  match e with
  | .value a => cases a <;> rfl
  | .power a _ => cases a <;> rfl
  | .paren e => simp [Factor.map, Factor.idents, Expr.idents_rename e]
end

theorem names_rename (u : UnresolvedDefs E M) : (u.rename ρ).names = u.names.map ρ := by
  simp only [Unresolved.names, UnresolvedDefs.rename, List.map_append, List.map_map]
  rfl

theorem definitions_rename (u : UnresolvedDefs E M) :
    (u.rename ρ).definitions = u.definitions.map fun d => (ρ d.1, d.2.map ρ) := by
  simp only [Unresolved.definitions, UnresolvedDefs.rename, List.map_append, List.map_map]
  congr 1; congr 1
  · apply List.map_congr_left
    rintro ⟨n, r⟩ _
    cases r with
    | base b => rfl
    | expression e => simp [Function.comp, DimensionEntry.rename, DimensionEntry.mentions, Definition.rename, Expr.idents_rename]
  · apply List.map_congr_left
    rintro ⟨n, s, a, r, g⟩ _
    cases r with
    | base b => rfl
    | expression e => simp [Function.comp, UnitEntry.rename, UnitEntry.mentions, Definition.rename, Expr.idents_rename]
  · apply List.map_congr_left
    rintro ⟨n, r, a⟩ _
    simp [Function.comp, ConstantEntry.rename, ConstantEntry.mentions, Expr.idents_rename]

theorem Grounded.rename {defs : List (Str × List Str)} {x : Str} (h : Grounded defs x) :
    Grounded (defs.map fun d => (ρ d.1, d.2.map ρ)) (ρ x) := by
  induction h with
  | intro x rs hx _ ih =>
    refine .intro _ (rs.map ρ) (List.mem_map.2 ⟨_, hx, rfl⟩) fun y hy => ?_
    obtain ⟨z, hz, rfl⟩ := List.mem_map.1 hy
    exact ih z hz

theorem isBase_rename (d : DimensionEntry E) : (d.rename ρ).isBase = d.isBase := by
  obtain ⟨n, r⟩ := d; cases r <;> rfl

theorem baseOf_rename (us : List (UnitEntry E M)) : baseOf (us.map (UnitEntry.rename ρ)) = (baseOf us).map ρ := by
  unfold baseOf
  rw [List.filterMap_map, List.map_filterMap]
  congr 1; funext x
  obtain ⟨n, s, a, r, g⟩ := x
  cases g <;> cases r <;> rfl

theorem toDef_rename (x : UnitEntry E M) (dm : DM E M) : (x.rename ρ).toDef (dm.rename σ) =
    ⟨ρ x.name, dm.dims.rename σ, dm.mag, x.symbol, (x.toDef dm).isBase⟩ := by
  obtain ⟨n, s, a, r, g⟩ := x
  cases r <;> rfl

theorem perm_of_names {α : Type} {name : α → Str} {l l' : List α} (h : (l.map name).Nodup) (h' : (l'.map name).Nodup)
    (hm : ∀ a, a ∈ l ↔ a ∈ l') : l.Perm l' :=
  (List.perm_ext_iff_of_nodup (List.Nodup.of_map _ h) (List.Nodup.of_map _ h')).2 hm

theorem Accepted.rename (hρ : Function.Injective ρ) (hσ : Function.Injective σ) {u : UnresolvedDefs E M} (hu : u.Fits ρ σ)
    {D : Defs E M} {res : BMap (ResolvedItem E M)} (h : Accepted u D res) :
    ∃ D', Accepted (u.rename ρ) D' (res.rename ρ σ) ∧ Defs.Renamed ρ σ D D' := by
  have hS : Solution (allItems (u.rename ρ)) (res.rename ρ σ) := by rw [allItems_rename hu]; exact h.solution.rename hρ hσ
  obtain ⟨ds, hds⟩ := Option.isSome_iff_exists.1 (getDimensions_isSome (res.rename ρ σ))
  obtain ⟨us, hus⟩ := Option.isSome_iff_exists.1 (getUnits_isSome (res.rename ρ σ))
  obtain ⟨cs, hcs⟩ := Option.isSome_iff_exists.1 (getConstants_isSome (res.rename ρ σ))
  have pd : ds.Perm (D.dimensions.map fun d => ⟨ρ d.name, d.dims.rename σ⟩) := by
    obtain ⟨h1, h2⟩ := dims_of_solution hS hds
    refine perm_of_names h2 ?_ fun a => ?_
    · rw [List.map_map]
      have := h.dim_nodup.map hρ
      rwa [List.map_map] at this
    · rw [h1, List.mem_map]
      constructor
      · rintro ⟨d, hd, dm, hg, rfl⟩
        obtain ⟨d, hd', rfl⟩ := List.mem_map.1 hd
        obtain ⟨dm', g, -, hD⟩ := h.dim_val hd'
        refine ⟨_, hD, ?_⟩
        rw [show (DimensionEntry.rename ρ d).name = ρ d.name from rfl, BMap.rename_get hρ, g] at hg
        simp only [Option.map_some, Option.some.injEq, ResolvedItem.rename, ResolvedItem.mk.injEq] at hg
        rw [← hg.2]; rfl
      · rintro ⟨d, hd, rfl⟩
        obtain ⟨d, hd', dm, g, rfl⟩ := h.dim_from hd
        refine ⟨d.rename ρ, List.mem_map_of_mem hd', dm.rename σ, ?_, rfl⟩
        rw [show (DimensionEntry.rename ρ d).name = ρ d.name from rfl, BMap.rename_get hρ, g]
        simp [ResolvedItem.rename, Item.rename_ofDimension d (hu d hd')]
  have pu : us.Perm (D.units.map fun u => ⟨ρ u.name, u.dims.rename σ, u.mag, u.symbol, u.isBase⟩) := by
    obtain ⟨h1, h2⟩ := units_of_solution hS hus
    refine perm_of_names h2 ?_ fun a => ?_
    · rw [List.map_map]
      have := h.unit_nodup.map hρ
      rwa [List.map_map] at this
    · rw [h1, List.mem_map]
      constructor
      · rintro ⟨d, hd, dm, hg, rfl⟩
        obtain ⟨d, hd', rfl⟩ := List.mem_map.1 hd
        obtain ⟨dm', g, -, hD⟩ := h.unit_val hd'
        refine ⟨_, hD, ?_⟩
        rw [show (UnitEntry.rename ρ d).name = ρ d.name from rfl, BMap.rename_get hρ, g] at hg
        simp only [Option.map_some, Option.some.injEq, ResolvedItem.rename, ResolvedItem.mk.injEq] at hg
        rw [← hg.2, toDef_rename]; rfl
      · rintro ⟨d, hd, rfl⟩
        obtain ⟨d, hd', dm, g, rfl⟩ := h.unit_from hd
        refine ⟨d.rename ρ, List.mem_map_of_mem hd', dm.rename σ, ?_, (toDef_rename d dm).symm⟩
        rw [show (UnitEntry.rename ρ d).name = ρ d.name from rfl, BMap.rename_get hρ, g]
        simp [ResolvedItem.rename, Item.rename_ofUnit d]
  have pc : cs.Perm (D.constants.map fun c => ⟨ρ c.name, c.dims.rename σ, c.mag⟩) := by
    obtain ⟨h1, h2⟩ := constants_of_solution hS hcs
    refine perm_of_names h2 ?_ fun a => ?_
    · rw [List.map_map]
      have := h.const_nodup.map hρ
      rwa [List.map_map] at this
    · rw [h1, List.mem_map]
      constructor
      · rintro ⟨d, hd, dm, hg, rfl⟩
        obtain ⟨d, hd', rfl⟩ := List.mem_map.1 hd
        obtain ⟨dm', g, -, hD⟩ := h.const_val hd'
        refine ⟨_, hD, ?_⟩
        rw [show (ConstantEntry.rename ρ d).name = ρ d.name from rfl, BMap.rename_get hρ, g] at hg
        simp only [Option.map_some, Option.some.injEq, ResolvedItem.rename, ResolvedItem.mk.injEq] at hg
        rw [← hg.2]; rfl
      · rintro ⟨d, hd, rfl⟩
        obtain ⟨d, hd', dm, g, rfl⟩ := h.const_from hd
        refine ⟨d.rename ρ, List.mem_map_of_mem hd', dm.rename σ, ?_, rfl⟩
        rw [show (ConstantEntry.rename ρ d).name = ρ d.name from rfl, BMap.rename_get hρ, g]
        simp [ResolvedItem.rename, Item.rename_ofConstant d]
  refine ⟨⟨D.dimensionType, D.quantityType, ds, us, cs, D.baseDimensions.map σ⟩, ?_, ⟨rfl, rfl, rfl, pd, pu, pc⟩⟩
  constructor
  · exact h.quantity
  · exact h.dimension
  · constructor
    · intro d hd
      rw [show (u.rename ρ).units = u.units.map (UnitEntry.rename ρ) from rfl, baseOf_rename, List.mem_map] at hd
      obtain ⟨d, hd, rfl⟩ := hd
      obtain ⟨e, h1, h2, rfl⟩ := h.base_units.1 d hd
      exact ⟨e.rename ρ, List.mem_map_of_mem h1, (isBase_rename e).trans h2, rfl⟩
    · rw [show (u.rename ρ).units = u.units.map (UnitEntry.rename ρ) from rfl, baseOf_rename]
      exact h.base_units.2.map hρ
  · rw [show (u.rename ρ).units = u.units.map (UnitEntry.rename ρ) from rfl, List.filterMap_map]
    exact h.symbols
  · show D.baseDimensions.map σ = baseDimensions (u.dimensions.map (DimensionEntry.rename ρ))
    rw [h.base_dims]
    unfold baseDimensions
    rw [List.filter_map, List.map_map, List.map_map,
      List.filter_congr (fun (d : DimensionEntry E) _ => show (DimensionEntry.isBase ∘ DimensionEntry.rename ρ) d = d.isBase from isBase_rename d)]
    apply List.map_congr_left
    intro d hd
    exact (hu d (List.mem_filter.1 hd).1 (List.mem_filter.1 hd).2).symm
  · intro i hi x hx
    rw [allItems_rename hu] at hi
    obtain ⟨j, hj, rfl⟩ := List.mem_map.1 hi
    rw [Item.rename_refs] at hx
    obtain ⟨y, hy, rfl⟩ := List.mem_map.1 hx
    rw [names_rename]
    exact List.mem_map_of_mem (h.defined j hj y hy)
  · rw [names_rename]; exact h.nodup.map hρ
  · intro i hi j hj hij
    rw [allItems_rename hu] at hi hj
    obtain ⟨i, hi', rfl⟩ := List.mem_map.1 hi
    obtain ⟨j, hj', rfl⟩ := List.mem_map.1 hj
    rw [Item.rename_refs, Item.rename_ident, List.mem_map_of_injective hρ] at hij
    rw [Item.rename_kind, Item.rename_kind]
    exact h.kinds i hi' j hj' hij
  · intro x hx
    rw [names_rename] at hx
    obtain ⟨y, hy, rfl⟩ := List.mem_map.1 hx
    rw [definitions_rename]
    exact (h.grounded y hy).rename
  · exact hS
  · exact checkAnnotations_rename hρ hσ h.solution.sorted h.annotations
  · exact hds
  · exact hus
  · exact hcs
  · have := h.base_symbols
    unfold checkBaseSymbols at this ⊢
    rw [List.filterMap_eq_nil_iff] at this ⊢
    intro a ha
    obtain ⟨b, hb, rfl⟩ := List.mem_map.1 (pu.mem_iff.1 ha)
    have := this b hb
    simp only at this ⊢
    split at this
    · cases this
    · rename_i hn; rw [if_neg hn]

theorem expand_rename {one : M} {factor : Prefix → M} {u : UnitTemplate E M} (h : u.KeepsPrefixes ρ) :
    (u.rename ρ).expand one factor = (u.expand one factor).map (UnitEntry.rename ρ) := by
  unfold UnitTemplate.expand
  rw [List.map_flatMap]
  apply List.flatMap_congr
  intro pre hpre
  rw [List.map_map, show (u.rename ρ).aliases.map some ++ [none] = (u.aliases.map some ++ [none]).map (Option.map ρ) by
    simp [UnitTemplate.rename, Function.comp_def], List.map_map]
  apply List.map_congr_left
  intro al hal
  have hp : ∀ p, pre = some p → p ∈ u.prefixes := by rintro p rfl; simpa [UnitTemplate.rename] using hpre
  have ha : ∀ a, al = some a → a ∈ u.aliases := by rintro a rfl; simpa using hal
  simp only [Function.comp, UnitTemplate.expandOne, UnitEntry.rename]
  cases pre with
  | none => cases al <;> rfl
  | some p =>
    cases al with
    | none =>
      have := h p (hp p rfl) u.name (by simp)
      simp [UnitTemplate.formatName, UnitTemplate.formatSymbol, UnitTemplate.getDefinition, UnitTemplate.rename, Definition.rename, this,
        Expr.map, Factor.map, Atom.rename]
    | some a =>
      have := h p (hp p rfl) a (by simp [ha])
      simp [UnitTemplate.formatName, UnitTemplate.formatSymbol, UnitTemplate.getDefinition, UnitTemplate.rename, Definition.rename, this,
        Expr.map, Factor.map, Atom.rename]

theorem expandAll_rename {one : M} {factor : Prefix → M} {t : UnresolvedTemplates E M} (h : ∀ u ∈ t.units, u.KeepsPrefixes ρ) :
    UnresolvedTemplates.expand one factor (t.rename ρ) = (UnresolvedTemplates.expand one factor t).rename ρ := by
  simp only [UnresolvedTemplates.expand, UnresolvedTemplates.rename, UnresolvedDefs.rename, List.map_flatMap, List.flatMap_map]
  congr 1
  apply List.flatMap_congr
  intro u hu
  exact expand_rename (h u hu)

end Diman
