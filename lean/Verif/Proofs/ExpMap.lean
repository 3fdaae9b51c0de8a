import Verif.Proofs.Shape
/-! The resolver commutes with every change of exponent type and of numbers that respects their arithmetic. -/
set_option linter.unusedSectionVars false
namespace Diman
variable {E E' M M' : Type} [Exponent E] [Exponent E'] [MagOps E M] [MagOps E' M']

/-- A change of exponent type that respects the arithmetic the resolver does with exponents, including when it panics. -/
class ExpHom {E E' : Type} [Exponent E] [Exponent E'] (ψ : E → E') : Prop where
  inj : ∀ a b, ψ a = ψ b → a = b
  one : ψ Exponent.one = Exponent.one
  add : ∀ a b, Exponent.add (ψ a) (ψ b) = (Exponent.add a b).map ψ
  mul : ∀ a b, Exponent.mul (ψ a) (ψ b) = (Exponent.mul a b).map ψ
  neg : ∀ a, Exponent.neg (ψ a) = (Exponent.neg a).map ψ

/-- A change of exponent type that respects the arithmetic where it does not panic (the new arithmetic may succeed where the old one panics). -/
class ExpLift {E E' : Type} [Exponent E] [Exponent E'] (ψ : E → E') : Prop where
  inj : ∀ a b, ψ a = ψ b → a = b
  one : ψ Exponent.one = Exponent.one
  add : ∀ a b c, Exponent.add a b = some c → Exponent.add (ψ a) (ψ b) = some (ψ c)
  mul : ∀ a b c, Exponent.mul a b = some c → Exponent.mul (ψ a) (ψ b) = some (ψ c)
  neg : ∀ a c, Exponent.neg a = some c → Exponent.neg (ψ a) = some (ψ c)

instance {E E' : Type} [Exponent E] [Exponent E'] (ψ : E → E') [ExpHom ψ] : ExpLift ψ where
  inj := ExpHom.inj
  one := ExpHom.one
  add a b c h := by rw [ExpHom.add, h]; rfl
  mul a b c h := by rw [ExpHom.mul, h]; rfl
  neg a c h := by rw [ExpHom.neg, h]; rfl

/-- … and of numbers. -/
class ExHom {E E' M M' : Type} [Exponent E] [Exponent E'] [MagOps E M] [MagOps E' M'] (ψ : E → E') (φ : M → M') : Prop where
  one' : φ (MagOps.one E) = MagOps.one E'
  mul' : ∀ a b, φ (MagOps.mul E a b) = MagOps.mul E' (φ a) (φ b)
  div' : ∀ a b, φ (MagOps.div E a b) = MagOps.div E' (φ a) (φ b)
  pow' : ∀ a (e : E), φ (MagOps.pow a e) = MagOps.pow (φ a) (ψ e)

mutual
def Expr.mapPow {T : Type} (ψ : E → E') : Expr T E → Expr T E'
  | .value v => .value (v.mapPow ψ)
  | .binary l o r => .binary (l.mapPow ψ) o (r.mapPow ψ)
def Factor.mapPow {T : Type} (ψ : E → E') : Factor T E → Factor T E'
  | .value v => .value v
  | .power v e => .power v (ψ e)
  | .paren e => .paren (e.mapPow ψ)
end

mutual
@[simp] theorem Expr.vals_mapPow {T : Type} (ψ : E → E') (e : Expr T E) : (e.mapPow ψ).vals = e.vals := by
  match e with
  | .value v => simp [Expr.mapPow, Expr.vals, Factor.vals_mapPow ψ v]
  | .binary l o r => simp [Expr.mapPow, Expr.vals, Expr.vals_mapPow ψ l, Factor.vals_mapPow ψ r]
@[simp] theorem Factor.vals_mapPow {T : Type} (ψ : E → E') (e : Factor T E) : (e.mapPow ψ).vals = e.vals := by
  match e with
  | .value v => rfl
  | .power v x => rfl
  | .paren e => simp [Factor.mapPow, Factor.vals, Expr.vals_mapPow ψ e]
end

mutual
theorem Expr.mapPow_map {T T2 : Type} (ψ : E → E') (f : T → T2) (e : Expr T E) : (e.mapPow ψ).map f = (e.map f).mapPow ψ := by
  match e with
  | .value v => simp [Expr.mapPow, Expr.map, Factor.mapPow_map ψ f v]
  | .binary l o r => simp [Expr.mapPow, Expr.map, Expr.mapPow_map ψ f l, Factor.mapPow_map ψ f r]
theorem Factor.mapPow_map {T T2 : Type} (ψ : E → E') (f : T → T2) (e : Factor T E) : (e.mapPow ψ).map f = (e.map f).mapPow ψ := by
  match e with
  | .value v => rfl
  | .power v x => rfl
  | .paren e => simp [Factor.mapPow, Factor.map, Expr.mapPow_map ψ f e]
end

mutual
theorem Expr.mapM_mapPow {T T2 : Type} (ψ : E → E') (f : T → Option T2) (e : Expr T E) :
    (e.mapPow ψ).mapM f = (e.mapM f).map (Expr.mapPow ψ) := by
  match e with
  | .value v =>
    simp only [Expr.mapPow, Expr.mapM, Factor.mapM_mapPow ψ f v]
    cases v.mapM f <;> rfl
  | .binary l o r =>
    simp only [Expr.mapPow, Expr.mapM, Factor.mapM_mapPow ψ f r, Expr.mapM_mapPow ψ f l]
    cases l.mapM f with
    | none => rfl
    | some a => cases r.mapM f <;> rfl
theorem Factor.mapM_mapPow {T T2 : Type} (ψ : E → E') (f : T → Option T2) (e : Factor T E) :
    (e.mapPow ψ).mapM f = (e.mapM f).map (Factor.mapPow ψ) := by
  match e with
  | .value v => simp only [Factor.mapPow, Factor.mapM]; cases f v <;> rfl
  | .power v x => simp only [Factor.mapPow, Factor.mapM]; cases f v <;> rfl
  | .paren e =>
    simp only [Factor.mapPow, Factor.mapM, Expr.mapM_mapPow ψ f e]
    cases e.mapM f <;> rfl
end

def Dims.mapPow (ψ : E → E') (d : Dims E) : Dims E' := d.map fun p => (p.1, ψ p.2)
def Expr.mapEx {C D : Type} (ψ : E → E') (φ : C → D) (e : Expr (Atom C) E) : Expr (Atom D) E' := (e.map (Atom.mapConcrete φ)).mapPow ψ
def Definition.mapEx {C D : Type} (ψ : E → E') (φ : C → D) {B : Type} : Definition E B C → Definition E' B D
  | .base b => .base b
  | .expression e => .expression (e.mapEx ψ φ)
def DimensionEntry.mapEx (ψ : E → E') (d : DimensionEntry E) : DimensionEntry E' := ⟨d.name, d.rhs.mapEx ψ id⟩
def ConstantEntry.mapEx (ψ : E → E') (φ : M → M') (c : ConstantEntry E M) : ConstantEntry E' M' := ⟨c.name, c.rhs.mapEx ψ φ, c.annotation⟩
def UnitTemplate.mapEx (ψ : E → E') (φ : M → M') (u : UnitTemplate E M) : UnitTemplate E' M' :=
  ⟨u.name, u.symbol, u.aliases, u.prefixes, u.annotation, u.definition.mapEx ψ φ⟩
def UnitEntry.mapEx (ψ : E → E') (φ : M → M') (u : UnitEntry E M) : UnitEntry E' M' :=
  ⟨u.name, u.symbol, u.annotation, u.definition.mapEx ψ φ, u.autogeneratedFrom⟩
def UnresolvedTemplates.mapEx (ψ : E → E') (φ : M → M') (t : UnresolvedTemplates E M) : UnresolvedTemplates E' M' :=
  ⟨t.dimensionTypes, t.quantityTypes, t.dimensions.map (DimensionEntry.mapEx ψ), t.units.map (UnitTemplate.mapEx ψ φ), t.constants.map (ConstantEntry.mapEx ψ φ)⟩
def UnresolvedDefs.mapEx (ψ : E → E') (φ : M → M') (t : UnresolvedDefs E M) : UnresolvedDefs E' M' :=
  ⟨t.dimensionTypes, t.quantityTypes, t.dimensions.map (DimensionEntry.mapEx ψ), t.units.map (UnitEntry.mapEx ψ φ), t.constants.map (ConstantEntry.mapEx ψ φ)⟩
def DimensionDef.mapEx (ψ : E → E') (d : DimensionDef E) : DimensionDef E' := ⟨d.name, d.dims.mapPow ψ⟩
def UnitDef.mapEx (ψ : E → E') (φ : M → M') (u : UnitDef E M) : UnitDef E' M' := ⟨u.name, u.dims.mapPow ψ, φ u.mag, u.symbol, u.isBase⟩
def ConstantDef.mapEx (ψ : E → E') (φ : M → M') (u : ConstantDef E M) : ConstantDef E' M' := ⟨u.name, u.dims.mapPow ψ, φ u.mag⟩
def Defs.mapEx (ψ : E → E') (φ : M → M') (d : Defs E M) : Defs E' M' :=
  { dimensionType := d.dimensionType
    quantityType := d.quantityType
    dimensions := d.dimensions.map (DimensionDef.mapEx ψ)
    units := d.units.map (UnitDef.mapEx ψ φ)
    constants := d.constants.map (ConstantDef.mapEx ψ φ)
    baseDimensions := d.baseDimensions }

def DM.mapEx (ψ : E → E') (φ : M → M') (d : DM E M) : DM E' M' := ⟨d.dims.mapPow ψ, φ d.mag⟩
def ItemType.mapEx (ψ : E → E') (φ : M → M') : ItemType E M → ItemType E' M'
  | .dimension d => .dimension (d.mapEx ψ)
  | .unit u => .unit (u.mapEx ψ φ)
  | .constant c => .constant (c.mapEx ψ φ)
def Item.mapEx (ψ : E → E') (φ : M → M') (i : Item E M) : Item E' M' :=
  ⟨(i.expr.map (Atom.mapConcrete (DM.mapEx ψ φ))).mapPow ψ, (i.type.mapEx ψ φ)⟩
def ResolvedItem.mapEx (ψ : E → E') (φ : M → M') (r : ResolvedItem E M) : ResolvedItem E' M' := ⟨(r.item.mapEx ψ φ), (r.dimensions.mapEx ψ φ)⟩
def BMap.mapEx (ψ : E → E') (φ : M → M') (m : BMap (ResolvedItem E M)) : BMap (ResolvedItem E' M') := m.map fun p => (p.1, (p.2.mapEx ψ φ))

variable {ψ : E → E'}

theorem Dims.mapPow_get (d : Dims E) (k : Str) : Dims.get (Dims.mapPow ψ d) k = (Dims.get d k).map ψ := by
  induction d with
  | nil => rfl
  | cons p m ih =>
    obtain ⟨k', v⟩ := p
    show Dims.get ((k', ψ v) :: Dims.mapPow ψ m) k = _
    simp only [Dims.get]
    split
    · rfl
    · exact ih

section
variable [ExpHom ψ]
theorem Dims.mapPow_addEntry (d : Dims E) (k : Str) (v : E) :
    Dims.addEntry (Dims.mapPow ψ d) k (ψ v) = (Dims.addEntry d k v).map (Dims.mapPow ψ) := by
  induction d with
  | nil => rfl
  | cons p m ih =>
    obtain ⟨k', v'⟩ := p
    show Dims.addEntry ((k', ψ v') :: Dims.mapPow ψ m) k (ψ v) = _
    simp only [Dims.addEntry]
    split
    · rw [ExpHom.add]
      cases Exponent.add v' v <;> rfl
    · rw [ih]
      cases Dims.addEntry m k v <;> rfl
theorem Dims.mapPow_mul (a b : Dims E) : Dims.mul (Dims.mapPow ψ a) (Dims.mapPow ψ b) = (Dims.mul a b).map (Dims.mapPow ψ) := by
  induction b generalizing a with
  | nil => rfl
  | cons p m ih =>
    obtain ⟨k', v'⟩ := p
    show Dims.mul (Dims.mapPow ψ a) ((k', ψ v') :: Dims.mapPow ψ m) = _
    simp only [Dims.mul]
    rw [Dims.mapPow_addEntry]
    cases Dims.addEntry a k' v' with
    | none => rfl
    | some c => exact ih c
theorem Dims.mapPow_inv (a : Dims E) : Dims.inv (Dims.mapPow ψ a) = (Dims.inv a).map (Dims.mapPow ψ) := by
  induction a with
  | nil => rfl
  | cons p m ih =>
    obtain ⟨k', v'⟩ := p
    show Dims.inv ((k', ψ v') :: Dims.mapPow ψ m) = _
    simp only [Dims.inv, ih, ExpHom.neg]
    cases Exponent.neg v' with
    | none => rfl
    | some c => cases Dims.inv m <;> rfl
theorem Dims.mapPow_div (a b : Dims E) : Dims.div (Dims.mapPow ψ a) (Dims.mapPow ψ b) = (Dims.div a b).map (Dims.mapPow ψ) := by
  unfold Dims.div
  rw [Dims.mapPow_inv]
  cases Dims.inv b with
  | none => rfl
  | some c => exact Dims.mapPow_mul a c
theorem Dims.mapPow_pow (x : E) (a : Dims E) : Dims.pow (ψ x) (Dims.mapPow ψ a) = (Dims.pow x a).map (Dims.mapPow ψ) := by
  induction a with
  | nil => rfl
  | cons p m ih =>
    obtain ⟨k', v'⟩ := p
    show Dims.pow (ψ x) ((k', ψ v') :: Dims.mapPow ψ m) = _
    simp only [Dims.pow, ih, ExpHom.mul]
    cases Exponent.mul v' x with
    | none => rfl
    | some c => cases Dims.pow x m <;> rfl
end
section
variable [ExpLift ψ]
theorem Dims.mapPow_eq (a b : Dims E) : Dims.eq (Dims.mapPow ψ a) (Dims.mapPow ψ b) = Dims.eq a b := by
  unfold Dims.eq
  rw [Dims.mapPow, List.all_map]
  congr 1; funext p
  show (match Dims.get (Dims.mapPow ψ b) p.1 with | some v => decide (ψ p.2 = v) | none => false) = _
  rw [Dims.mapPow_get]
  cases Dims.get b p.1 with
  | none => rfl
  | some v =>
    show decide (ψ p.2 = ψ v) = decide (p.2 = v)
    rw [decide_eq_decide]
    exact ⟨ExpLift.inj _ _, fun h => by rw [h]⟩
end

variable {φ : M → M'} [ExpLift ψ] [ExHom ψ φ]

@[simp] theorem Item.mapEx_kind (i : Item E M) : (i.mapEx ψ φ).kind = i.kind := by
  obtain ⟨e, t⟩ := i
  cases t with
  | dimension d => rfl
  | unit u => obtain ⟨n, s, a, d, g⟩ := u; cases d <;> rfl
  | constant c => rfl
@[simp] theorem Item.mapEx_ident (i : Item E M) : (i.mapEx ψ φ).ident = i.ident := by
  obtain ⟨e, t⟩ := i; cases t <;> rfl
@[simp] theorem Item.mapEx_annotation (i : Item E M) : (i.mapEx ψ φ).annotation = i.annotation := by
  obtain ⟨e, t⟩ := i; cases t <;> rfl
@[simp] theorem Item.mapEx_auto (i : Item E M) : (i.mapEx ψ φ).autogeneratedFrom = i.autogeneratedFrom := by
  obtain ⟨e, t⟩ := i; cases t <;> rfl
theorem Item.mapEx_vals (i : Item E M) : (i.mapEx ψ φ).expr.vals = i.expr.vals.map (Atom.mapConcrete (DM.mapEx ψ φ)) := by
  simp [Item.mapEx, Expr.vals_map]
@[simp] theorem Item.mapEx_refs (i : Item E M) : (i.mapEx ψ φ).refs = i.refs := by
  unfold Item.refs
  rw [Item.mapEx_vals, List.filterMap_map]
  congr 1; funext a; cases a <;> rfl

theorem DM.mapEx_dimensions (d : Dims E) : (DM.dimensions d : DM E M).mapEx ψ φ = (DM.dimensions (d.mapPow ψ) : DM E' M') := by
  simp [DM.mapEx, DM.dimensions, ExHom.one' (ψ := ψ) (φ := φ)]
theorem DM.mapEx_dimensions_nil : (DM.dimensions [] : DM E M).mapEx ψ φ = (DM.dimensions [] : DM E' M') := DM.mapEx_dimensions []
theorem Atom.mapConcrete_id {C : Type} : (Atom.mapConcrete id : Atom C → Atom C) = id := by
  funext a; cases a <;> rfl
mutual
theorem Expr.map_id {T E : Type} (e : Expr T E) : e.map id = e := by
  match e with
  | .value v => simp [Expr.map, Factor.map_id v]
  | .binary l o r => simp [Expr.map, Expr.map_id l, Factor.map_id r]
theorem Factor.map_id {T E : Type} (e : Factor T E) : e.map id = e := by
  match e with
  | .value v => rfl
  | .power v x => rfl
  | .paren e => simp [Factor.map, Expr.map_id e]
end
theorem Item.mapEx_ofDimension (d : DimensionEntry E) : ((Item.ofDimension (M := M) d).mapEx ψ φ) = Item.ofDimension (M := M') (d.mapEx ψ) := by
  obtain ⟨n, r⟩ := d
  cases r with
  | base b =>
    simp [Item.ofDimension, Item.mapEx, Expr.map, Factor.map, Atom.mapConcrete, ItemType.mapEx, DM.mapEx_dimensions, DimensionEntry.mapEx,
      Definition.mapEx, Expr.mapPow, Factor.mapPow, Dims.mapPow, ExpLift.one]
  | expression e =>
    simp only [Item.ofDimension, Item.mapEx, DimensionEntry.mapEx, Definition.mapEx, Expr.mapEx, Expr.map_map, Atom.mapConcrete_comp,
      Expr.mapPow_map, ItemType.mapEx,
      show (DM.mapEx ψ φ ∘ fun _ : Unit => (DM.dimensions [] : DM E M)) = fun _ => (DM.dimensions [] : DM E' M') from
        funext fun _ => DM.mapEx_dimensions_nil]
    rfl
theorem Item.mapEx_ofUnit (d : UnitEntry E M) : ((Item.ofUnit d).mapEx ψ φ) = Item.ofUnit (d.mapEx ψ φ) := by
  obtain ⟨n, s, a, r, g⟩ := d
  cases r with
  | base b => rfl
  | expression e =>
    simp only [Item.ofUnit, Item.mapEx, UnitEntry.mapEx, Definition.mapEx, Expr.mapEx, Expr.map_map, Atom.mapConcrete_comp, Expr.mapPow_map]
    rfl
theorem Item.mapEx_ofConstant (d : ConstantEntry E M) : ((Item.ofConstant d).mapEx ψ φ) = Item.ofConstant (d.mapEx ψ φ) := by
  obtain ⟨n, r, a⟩ := d
  simp only [Item.ofConstant, Item.mapEx, ConstantEntry.mapEx, Expr.mapEx, Expr.map_map, Atom.mapConcrete_comp, Expr.mapPow_map]
  rfl

theorem allItems_mapEx (u : UnresolvedDefs E M) : allItems (u.mapEx ψ φ) = (allItems u).map (Item.mapEx ψ φ) := by
  simp only [allItems, UnresolvedDefs.mapEx, List.map_append, List.map_map]
  congr 1; congr 1
  · apply List.map_congr_left; intro d _; exact (Item.mapEx_ofDimension d).symm
  · apply List.map_congr_left; intro d _; exact (Item.mapEx_ofUnit d).symm
  · apply List.map_congr_left; intro d _; exact (Item.mapEx_ofConstant d).symm

theorem BMap.mapEx_get (m : BMap (ResolvedItem E M)) (k : Str) : BMap.get (m.mapEx ψ φ) k = (BMap.get m k).map (ResolvedItem.mapEx ψ φ) := by
  induction m with
  | nil => rfl
  | cons p m ih =>
    obtain ⟨k', v⟩ := p
    show BMap.get ((k', (v.mapEx ψ φ)) :: (BMap.mapEx ψ φ) m) k = _
    simp only [BMap.get]
    split
    · rfl
    · exact ih
theorem BMap.mapEx_insert (m : BMap (ResolvedItem E M)) (k : Str) (v : ResolvedItem E M) :
    ((BMap.insert m k v).mapEx ψ φ) = BMap.insert (m.mapEx ψ φ) k (v.mapEx ψ φ) := by
  induction m with
  | nil => rfl
  | cons p m ih =>
    obtain ⟨k', v'⟩ := p
    show (BMap.mapEx ψ φ) (BMap.insert ((k', v') :: m) k v) = BMap.insert ((k', (v'.mapEx ψ φ)) :: (BMap.mapEx ψ φ) m) k (v.mapEx ψ φ)
    simp only [BMap.insert]
    split
    · rfl
    · split
      · rfl
      · rw [← ih]; rfl

theorem isResolvable_mapEx (res : BMap (ResolvedItem E M)) (i : Item E M) : isResolvable (res.mapEx ψ φ) (i.mapEx ψ φ) = isResolvable res i := by
  unfold isResolvable
  rw [Item.mapEx_vals, List.all_map]
  congr 1; funext a
  cases a with
  | concrete c => rfl
  | other x => simp [Atom.mapConcrete, BMap.contains, BMap.mapEx_get]

mutual
theorem Expr.eval_mapEx [ExpHom ψ] (e : Expr (DM E M) E) : ((e.map (DM.mapEx ψ φ)).mapPow ψ).eval = (e.eval).map (DM.mapEx ψ φ) := by
  match e with
  | .value v => simp [Expr.map, Expr.mapPow, Expr.eval, Factor.eval_mapEx v]
  | .binary l o r =>
    simp only [Expr.map, Expr.mapPow, Expr.eval, Factor.eval_mapEx r, Expr.eval_mapEx l]
    cases hl : l.eval with
    | none => rfl
    | some a =>
      cases hr : r.eval with
      | none => rfl
      | some b =>
        cases o with
        | mul =>
          show (do return (⟨← (Dims.mapPow ψ a.dims).mul (Dims.mapPow ψ b.dims), MagOps.mul E' (φ a.mag) (φ b.mag)⟩ : DM E' M')) = Option.map (DM.mapEx ψ φ) (do return ⟨← a.dims.mul b.dims, MagOps.mul E a.mag b.mag⟩)
          rw [← ExHom.mul' (ψ := ψ) (φ := φ), Dims.mapPow_mul]; cases a.dims.mul b.dims <;> rfl
        | div =>
          show (do return (⟨← (Dims.mapPow ψ a.dims).div (Dims.mapPow ψ b.dims), MagOps.div E' (φ a.mag) (φ b.mag)⟩ : DM E' M')) = Option.map (DM.mapEx ψ φ) (do return ⟨← a.dims.div b.dims, MagOps.div E a.mag b.mag⟩)
          rw [← ExHom.div' (ψ := ψ) (φ := φ), Dims.mapPow_div]; cases a.dims.div b.dims <;> rfl
theorem Factor.eval_mapEx [ExpHom ψ] (e : Factor (DM E M) E) : ((e.map (DM.mapEx ψ φ)).mapPow ψ).eval = (e.eval).map (DM.mapEx ψ φ) := by
  match e with
  | .value v => rfl
  | .power v x =>
    show (do return (⟨← (Dims.mapPow ψ v.dims).pow (ψ x), MagOps.pow (φ v.mag) (ψ x)⟩ : DM E' M')) = Option.map (DM.mapEx ψ φ) (do return ⟨← v.dims.pow x, MagOps.pow v.mag x⟩)
    rw [← ExHom.pow' (ψ := ψ) (φ := φ), Dims.mapPow_pow]; cases v.dims.pow x <;> rfl
  | .paren e => simp [Factor.map, Factor.mapPow, Factor.eval, Expr.eval_mapEx e]
end

theorem resolveDimensions_mapEx [ExpHom ψ] (res : BMap (ResolvedItem E M)) (i : Item E M) :
    resolveDimensions (res.mapEx ψ φ) (i.mapEx ψ φ) = (resolveDimensions res i).map (DM.mapEx ψ φ) := by
  rw [resolveDimensions_def, resolveDimensions_def]
  have : (i.mapEx ψ φ).expr.mapM (leafOf (res.mapEx ψ φ)) = (i.expr.mapM (leafOf res)).map (fun e => (Expr.map (DM.mapEx ψ φ) e).mapPow ψ) := by
    rw [Item.mapEx, Expr.mapM_mapPow, Expr.mapM_map, ← Function.comp_def (f := Expr.mapPow ψ), ← Option.map_map, ← Expr.map_mapM]
    congr 2; funext a
    cases a with
    | concrete c => rfl
    | other x =>
      simp only [Atom.mapConcrete, leafOf, BMap.mapEx_get, Option.map_map]
      rfl
  rw [this]
  cases i.expr.mapM (leafOf res) with
  | none => rfl
  | some e => exact Expr.eval_mapEx e

theorem takeResolvable_mapEx (res : BMap (ResolvedItem E M)) (l : List (Item E M)) :
    takeResolvable (res.mapEx ψ φ) (l.map (Item.mapEx ψ φ)) =
      (takeResolvable res l).map fun p => ((p.1.mapEx ψ φ), p.2.map (Item.mapEx ψ φ)) := by
  induction l with
  | nil => rfl
  | cons x l ih =>
    simp only [List.map_cons, takeResolvable, isResolvable_mapEx]
    split
    · rfl
    · rw [ih]; cases takeResolvable res l <;> rfl

theorem resolveLoop_mapEx [ExpHom ψ] (l : List (Item E M)) (res : BMap (ResolvedItem E M)) :
    resolveLoop (l.map (Item.mapEx ψ φ)) (res.mapEx ψ φ) = (resolveLoop l res).map fun p => ((p.1.mapEx ψ φ), p.2) := by
  obtain ⟨n, hn⟩ : ∃ n, l.length = n := ⟨_, rfl⟩
  induction n generalizing l res with
  | zero =>
    have : l = [] := List.eq_nil_of_length_eq_zero hn
    subst this
    rw [resolveLoop, resolveLoop]; rfl
  | succ n ih =>
    rw [resolveLoop, resolveLoop]
    have he : (l.map (Item.mapEx ψ φ)).isEmpty = l.isEmpty := by cases l <;> rfl
    rw [he]
    cases hl : l.isEmpty with
    | true => simp
    | false =>
      simp only [Bool.false_eq_true, if_false]
      have hts := takeResolvable_mapEx (ψ := ψ) (φ := φ) res l
      split
      · rename_i x rest ht
        rw [ht] at hts
        cases ht' : takeResolvable res l with
        | none => rw [ht'] at hts; simp at hts
        | some p =>
          obtain ⟨x', rest'⟩ := p
          rw [ht'] at hts
          simp only [Option.map_some, Option.some.injEq, Prod.mk.injEq] at hts
          obtain ⟨rfl, rfl⟩ := hts
          simp only
          rw [resolveDimensions_mapEx]
          cases resolveDimensions res x' with
          | none => rfl
          | some d =>
            simp only [Option.map_some, Option.bind_eq_bind, Option.bind_some, Item.mapEx_ident]
            have := ih rest' (res.insert x'.ident ⟨x', d⟩) (by have := takeResolvable_length ht'; omega)
            rw [← this, BMap.mapEx_insert]; rfl
      · rename_i ht
        rw [ht] at hts
        cases ht' : takeResolvable res l with
        | some p => rw [ht'] at hts; simp at hts
        | none => simp [Function.comp_def]

theorem ids_mapEx (l : List (Item E M)) : (l.map (Item.mapEx ψ φ)).map Item.ident = l.map Item.ident := by
  simp [Function.comp_def]

theorem filterAutogenerated_mapEx (l : List (Item E M)) :
    filterAutogenerated (l.map (Item.mapEx ψ φ)) = (filterAutogenerated l).map (Item.mapEx ψ φ) := by
  unfold filterAutogenerated
  rw [List.filter_map]
  congr 1
  simp [unresolvedIdents, Function.comp_def]

theorem filterUndefined_mapEx (l : List (Item E M)) :
    filterUndefined (l.map (Item.mapEx ψ φ)) = ((filterUndefined l).1.map (Item.mapEx ψ φ), (filterUndefined l).2) := by
  have hf : ∀ defined, (firstUndefined defined ∘ (Item.mapEx ψ φ) : Item E M → _) = firstUndefined defined := by
    intro d; funext i; simp [firstUndefined]
  unfold filterUndefined
  simp only [unresolvedIdents, ids_mapEx, List.filterMap_map, hf, List.filter_map]
  congr 1
  congr 1
  simp [Function.comp_def, firstUndefined]

theorem multiplyDefined_mapEx (l : List (Item E M)) : multiplyDefined (l.map (Item.mapEx ψ φ)) = multiplyDefined l := by
  unfold multiplyDefined; simp only [ids_mapEx]

theorem kindOf_mapEx (l : List (Item E M)) (x : Str) : kindOf (l.map (Item.mapEx ψ φ)) x = kindOf l x := by
  unfold kindOf
  rw [← List.map_reverse, List.find?_map]
  simp [Function.comp_def]

theorem checkKinds_mapEx (l : List (Item E M)) : checkKinds (l.map (Item.mapEx ψ φ)) = checkKinds l := by
  unfold checkKinds
  rw [List.flatMap_map]
  simp only [Item.mapEx_refs, kindOf_mapEx, Item.mapEx_kind, Item.mapEx_ident]

theorem checkAnnotations_mapEx (res : BMap (ResolvedItem E M)) : checkAnnotations (res.mapEx ψ φ) = checkAnnotations res := by
  unfold checkAnnotations
  have hg := BMap.mapEx_get (ψ := ψ) (φ := φ) res
  generalize hS : (BMap.mapEx ψ φ) res = S at hg
  have h1 : ∀ f : Str × ResolvedItem E' M' → List Diag, List.flatMap f S = List.flatMap (fun p => f (p.1, (p.2.mapEx ψ φ))) res := by
    intro f; rw [← hS, BMap.mapEx, List.flatMap_map]
  rw [h1]
  congr 1; funext p
  obtain ⟨k, it⟩ := p
  simp only [ResolvedItem.mapEx]
  simp only [Item.mapEx_annotation, Item.mapEx_ident]
  cases it.item.annotation with
  | none => rfl
  | some a =>
    simp only [hg]
    cases BMap.get res a with
    | none => rfl
    | some r => simp [ResolvedItem.mapEx, DM.mapEx, Dims.mapPow_eq]

theorem resolveItems_mapEx [ExpHom ψ] (l : List (Item E M)) :
    resolveItems (l.map (Item.mapEx ψ φ)) = (resolveItems l).map fun p => ((p.1.mapEx ψ φ), p.2) := by
  unfold resolveItems
  simp only [filterUndefined_mapEx, filterAutogenerated_mapEx, multiplyDefined_mapEx, checkKinds_mapEx]
  have := resolveLoop_mapEx (ψ := ψ) (φ := φ) (filterAutogenerated (filterAutogenerated (filterAutogenerated (filterUndefined l).1))) []
  rw [show (BMap.mapEx ψ φ) ([] : BMap (ResolvedItem E M)) = [] from rfl] at this
  rw [this]
  cases resolveLoop (filterAutogenerated (filterAutogenerated (filterAutogenerated (filterUndefined l).1))) [] with
  | none => rfl
  | some p => simp [checkAnnotations_mapEx]

theorem getDimensions_mapEx (res : BMap (ResolvedItem E M)) :
    getDimensions (res.mapEx ψ φ) = (getDimensions res).map (List.map (DimensionDef.mapEx ψ)) := by
  unfold getDimensions
  rw [BMap.mapEx, List.filter_map]
  rw [mapM_map_option _ _ (fun r : Str × ResolvedItem E M => match r.2.item.type with | .dimension d => some (⟨d.name, r.2.dimensions.dims⟩ : DimensionDef E) | _ => none) (DimensionDef.mapEx ψ)]
  · congr 3
    funext p; simp [ResolvedItem.mapEx]
  · rintro ⟨k, ⟨⟨e, t⟩, d⟩⟩ _
    cases t <;> rfl

theorem getUnits_mapEx (res : BMap (ResolvedItem E M)) :
    getUnits (res.mapEx ψ φ) = (getUnits res).map (List.map (UnitDef.mapEx ψ φ)) := by
  unfold getUnits
  rw [BMap.mapEx, List.filter_map]
  rw [mapM_map_option _ _ (fun r : Str × ResolvedItem E M => match r.2.item.type with
    | .unit u => some (⟨u.name, r.2.dimensions.dims, r.2.dimensions.mag, u.symbol,
        match u.definition with | .base _ => true | .expression _ => false⟩ : UnitDef E M)
    | _ => none) (UnitDef.mapEx ψ φ)]
  · congr 3
    funext p; simp [ResolvedItem.mapEx]
  · rintro ⟨k, ⟨⟨e, t⟩, d⟩⟩ _
    cases t with
    | unit u => obtain ⟨n, s, a, dd, g⟩ := u; cases dd <;> rfl
    | _ => rfl

theorem getConstants_mapEx (res : BMap (ResolvedItem E M)) :
    getConstants (res.mapEx ψ φ) = (getConstants res).map (List.map (ConstantDef.mapEx ψ φ)) := by
  unfold getConstants
  rw [BMap.mapEx, List.filter_map]
  rw [mapM_map_option _ _ (fun r : Str × ResolvedItem E M => match r.2.item.type with
    | .constant c => some (⟨c.name, r.2.dimensions.dims, r.2.dimensions.mag⟩ : ConstantDef E M)
    | _ => none) (ConstantDef.mapEx ψ φ)]
  · congr 3
    funext p; simp [ResolvedItem.mapEx]
  · rintro ⟨k, ⟨⟨e, t⟩, d⟩⟩ _
    cases t <;> rfl

theorem checkBaseUnits_mapEx (bd : List Str) (c : Str → Nat) (us : List (UnitEntry E M)) :
    checkBaseUnits bd c (us.map (UnitEntry.mapEx ψ φ)) = checkBaseUnits bd c us := by
  induction us generalizing c with
  | nil => rfl
  | cons u us ih =>
    obtain ⟨n, s, a, d, g⟩ := u
    simp only [List.map_cons, checkBaseUnits, UnitEntry.mapEx]
    split
    · exact ih c
    · cases d with
      | base b => simp only [Definition.mapEx, ih]
      | expression e => simp only [Definition.mapEx, ih]

theorem checkSymbols_mapEx (us : List (UnitEntry E M)) : checkSymbols (us.map (UnitEntry.mapEx ψ φ)) = checkSymbols us := by
  unfold checkSymbols
  have h1 : (us.map (UnitEntry.mapEx ψ φ)).filterMap UnitEntry.symbol = us.filterMap UnitEntry.symbol := by
    rw [List.filterMap_map]; rfl
  simp only [h1, List.filter_map, List.map_map]
  rfl

theorem checkBaseSymbols_mapEx (us : List (UnitDef E M)) : checkBaseSymbols (us.map (UnitDef.mapEx ψ φ)) = checkBaseSymbols us := by
  unfold checkBaseSymbols; rw [List.filterMap_map]; rfl

theorem isBase_mapEx (d : DimensionEntry E) : (d.mapEx ψ).isBase = d.isBase := by
  obtain ⟨n, r⟩ := d; cases r <;> rfl

theorem baseEntries_mapEx {A : Type} (l : List (DimensionEntry E)) (f : Str → A) :
    ((l.map (DimensionEntry.mapEx ψ)).filter DimensionEntry.isBase).map (fun d => f d.name) = (l.filter DimensionEntry.isBase).map fun d => f d.name := by
  rw [List.filter_map, List.map_map, show (DimensionEntry.isBase ∘ DimensionEntry.mapEx ψ) = DimensionEntry.isBase from
    funext fun d => isBase_mapEx d]
  rfl

/-- Resolution commutes with the change of exponents and numbers. -/
theorem resolveDefs_mapEx [ExpHom ψ] (u : UnresolvedDefs E M) :
    resolveDefs (u.mapEx ψ φ) = (resolveDefs u).map fun p => ((p.1.mapEx ψ φ), p.2) := by
  unfold resolveDefs
  rw [allItems_mapEx, resolveItems_mapEx]
  have h1 : (u.mapEx ψ φ).units = u.units.map (UnitEntry.mapEx ψ φ) := rfl
  have h2 := baseEntries_mapEx (ψ := ψ) u.dimensions id
  have h3 := baseEntries_mapEx (ψ := ψ) u.dimensions toSnakecase
  simp only [h1, checkBaseUnits_mapEx, checkSymbols_mapEx]
  cases resolveItems (allItems u) with
  | none => rfl
  | some p =>
    obtain ⟨res, ds⟩ := p
    simp only [Option.map_some, Option.bind_eq_bind, Option.bind_some, getDimensions_mapEx, getUnits_mapEx, getConstants_mapEx]
    cases getDimensions res with
    | none => rfl
    | some a =>
      cases getUnits res with
      | none => rfl
      | some b =>
        cases getConstants res with
        | none => rfl
        | some c =>
          simp only [Option.map_some, Option.bind_some, checkBaseSymbols_mapEx]
          simp only [baseDimensions, UnresolvedDefs.mapEx, h3, show ((u.dimensions.map (DimensionEntry.mapEx ψ)).filter DimensionEntry.isBase).map DimensionEntry.name = (u.dimensions.filter DimensionEntry.isBase).map DimensionEntry.name from h2]
          rfl

theorem expand_mapEx (one : M) (factor : Prefix → M) (t : UnresolvedTemplates E M) :
    UnresolvedTemplates.expand (φ one) (φ ∘ factor) (t.mapEx ψ φ) = ((UnresolvedTemplates.expand one factor t).mapEx ψ φ) := by
  have h : ∀ u : UnitTemplate E M, (u.mapEx ψ φ).expand (φ one) (φ ∘ factor) = (u.expand one factor).map (UnitEntry.mapEx ψ φ) := by
    intro u
    unfold UnitTemplate.expand
    rw [List.map_flatMap]
    show List.flatMap _ (u.prefixes.map some ++ [none]) = _
    congr 1; funext pre
    rw [List.map_map]
    show List.map _ (u.aliases.map some ++ [none]) = _
    apply List.map_congr_left
    intro al _
    simp only [UnitTemplate.expandOne, UnitEntry.mapEx, Function.comp, UnitEntry.mk.injEq]
    refine ⟨?_, ?_, rfl, ?_, ?_⟩
    · rfl
    · rfl
    · simp only [UnitTemplate.getDefinition]
      split
      · rfl
      · cases pre <;> rfl
    · rfl
  simp only [UnresolvedTemplates.expand, UnresolvedTemplates.mapEx, UnresolvedDefs.mapEx, List.flatMap_map, h, List.map_flatMap]

/-- So does the whole front end. -/
theorem runUnitSystem_mapEx [ExpHom ψ] (factor : Prefix → M) (t : UnresolvedTemplates E M) :
    runUnitSystem (φ ∘ factor) (t.mapEx ψ φ) = (runUnitSystem factor t).map fun p => ((p.1.mapEx ψ φ), p.2) := by
  unfold runUnitSystem
  rw [← resolveDefs_mapEx, ← expand_mapEx, ExHom.one' (ψ := ψ) (φ := φ)]

end Diman
