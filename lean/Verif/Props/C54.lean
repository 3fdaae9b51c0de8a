import Verif.Spec.Rewriting
import Verif.Props.C52
/-!
# C54 — naming a subexpression, or writing a name out, changes nothing
-/
set_option linter.unusedSectionVars false
namespace Diman

theorem forall₂_append {α β : Type} {R : α → β → Prop} {a c' : List α} {b d : List β} (h : List.Forall₂ R a b) (h' : List.Forall₂ R c' d) :
    List.Forall₂ R (a ++ c') (b ++ d) := List.rel_append h h'

theorem forall₂_flatMap {α β γ δ : Type} {R : α → β → Prop} {S : γ → δ → Prop} {l : List α} {l' : List β} (h : List.Forall₂ R l l')
    {f : α → List γ} {g : β → List δ} (hfg : ∀ a b, R a b → List.Forall₂ S (f a) (g b)) : List.Forall₂ S (l.flatMap f) (l'.flatMap g) := by
  induction h with
  | nil => simp
  | cons hr _ ih => simp only [List.flatMap_cons]; exact List.rel_append (hfg _ _ hr) ih

theorem C54.forall₂_map_eq {α β γ : Type} {R : α → β → Prop} {l : List α} {l' : List β} (h : List.Forall₂ R l l') {f : α → γ} {g : β → γ}
    (hfg : ∀ a b, R a b → g b = f a) : l'.map g = l.map f := by
  induction h with
  | nil => rfl
  | cons hr _ ih => simp [hfg _ _ hr, ih]

theorem forall₂_filterMap_eq {α β γ : Type} {R : α → β → Prop} {l : List α} {l' : List β} (h : List.Forall₂ R l l') {f : α → Option γ}
    {g : β → Option γ} (hfg : ∀ a b, R a b → g b = f a) : l'.filterMap g = l.filterMap f := by
  induction h with
  | nil => rfl
  | cons hr _ ih => simp [List.filterMap_cons, hfg _ _ hr, ih]

section
variable {E M : Type} [Exponent E] [MagOps E M]

/-! ### Replacing right-hand sides by others with the same value -/

/-- The symbol of a unit item. -/
def Item.symbol (i : Item E M) : Option Str :=
  match i.type with
  | .unit u => u.symbol
  | _ => none

/-- Everything about an item but its expression. -/
structure Item.Like (i i' : Item E M) : Prop where
  ident : i.ident = i'.ident
  kind : i.kind = i'.kind
  annotation : i.annotation = i'.annotation
  symbol : i.symbol = i'.symbol

/-- What the definitions contain for one resolved item. -/
def ResolvedItem.dimOut (r : ResolvedItem E M) : Option (DimensionDef E) :=
  match r.item.type with
  | .dimension d => some ⟨d.name, r.dimensions.dims⟩
  | _ => none
def ResolvedItem.unitOut (r : ResolvedItem E M) : Option (UnitDef E M) :=
  match r.item.type with
  | .unit u => some ⟨u.name, r.dimensions.dims, r.dimensions.mag, u.symbol,
      match u.definition with | .base _ => true | .expression _ => false⟩
  | _ => none
def ResolvedItem.constOut (r : ResolvedItem E M) : Option (ConstantDef E M) :=
  match r.item.type with
  | .constant c => some ⟨c.name, r.dimensions.dims, r.dimensions.mag⟩
  | _ => none

theorem ResolvedItem.out_like {i i' : Item E M} (h : i.Like i') (dm : DM E M) :
    (⟨i, dm⟩ : ResolvedItem E M).dimOut = (⟨i', dm⟩ : ResolvedItem E M).dimOut ∧
    (⟨i, dm⟩ : ResolvedItem E M).unitOut = (⟨i', dm⟩ : ResolvedItem E M).unitOut ∧
    (⟨i, dm⟩ : ResolvedItem E M).constOut = (⟨i', dm⟩ : ResolvedItem E M).constOut := by
  obtain ⟨h1, h2, _, h4⟩ := h
  obtain ⟨e, t⟩ := i
  obtain ⟨e', t'⟩ := i'
  unfold Item.ident at h1
  unfold Item.kind at h2
  unfold Item.symbol at h4
  unfold ResolvedItem.dimOut ResolvedItem.unitOut ResolvedItem.constOut
  cases t with
  | dimension d =>
    cases t' with
    | dimension d' => simp_all
    | unit u' => simp only at h2; cases hu : u'.definition <;> rw [hu] at h2 <;> simp at h2
    | constant c' => simp at h2
  | unit u =>
    cases t' with
    | dimension d' => simp only at h2; cases hu : u.definition <;> rw [hu] at h2 <;> simp at h2
    | unit u' =>
      cases hu : u.definition <;> cases hu' : u'.definition <;> simp_all
    | constant c' => simp only at h2; cases hu : u.definition <;> rw [hu] at h2 <;> simp at h2
  | constant c =>
    cases t' with
    | dimension d' => simp at h2
    | unit u' => simp only at h2; cases hu : u'.definition <;> rw [hu] at h2 <;> simp at h2
    | constant c' => simp_all

/-- The map with the items exchanged. -/
def BMap.exchange (g : Str → Item E M → Item E M) (res : BMap (ResolvedItem E M)) : BMap (ResolvedItem E M) :=
  res.map fun p => (p.1, ⟨g p.1 p.2.item, p.2.dimensions⟩)

theorem BMap.get_exchange (g : Str → Item E M → Item E M) (res : BMap (ResolvedItem E M)) (k : Str) :
    (res.exchange g).get k = (res.get k).map fun r => ⟨g k r.item, r.dimensions⟩ := by
  induction res with
  | nil => rfl
  | cons p res ih =>
    obtain ⟨k', r⟩ := p
    simp only [BMap.exchange, List.map_cons, BMap.get] at ih ⊢
    split
    · rename_i hk; subst hk; rfl
    · exact ih

theorem BMap.exchange_out {g : Str → Item E M → Item E M} {res : BMap (ResolvedItem E M)}
    (hg : ∀ p ∈ res, p.2.item.Like (g p.1 p.2.item)) :
    getDimensions (res.exchange g) = getDimensions res ∧ getUnits (res.exchange g) = getUnits res ∧
    getConstants (res.exchange g) = getConstants res := by
  have aux : ∀ {β : Type} (P : Kind → Bool) (out : ResolvedItem E M → Option β)
      (_ : ∀ i i' : Item E M, i.Like i' → ∀ dm, out ⟨i, dm⟩ = out ⟨i', dm⟩),
      ((res.exchange g).filter fun r => P r.2.item.kind).mapM (fun r => out r.2) =
        (res.filter fun r => P r.2.item.kind).mapM (fun r => out r.2) := by
    intro β P out hout
    induction res with
    | nil => rfl
    | cons p res ih =>
      obtain ⟨k, i, dm⟩ := p
      have hl := hg (k, ⟨i, dm⟩) (by simp)
      have ih := ih fun q hq => hg q (by simp [hq])
      simp only [BMap.exchange, List.map_cons, List.filter_cons] at ih ⊢
      simp only at hl
      rw [← hl.kind]
      split
      · rw [List.mapM_cons, List.mapM_cons, ih, hout _ _ hl]
      · exact ih
  refine ⟨?_, ?_, ?_⟩
  · exact aux (fun k => decide (k = .dimension)) ResolvedItem.dimOut fun i i' h dm => (ResolvedItem.out_like h dm).1
  · exact aux (fun k => decide (k = .unit) || decide (k = .baseUnit)) ResolvedItem.unitOut fun i i' h dm => (ResolvedItem.out_like h dm).2.1
  · exact aux (fun k => decide (k = .constant)) ResolvedItem.constOut fun i i' h dm => (ResolvedItem.out_like h dm).2.2

theorem resolveDimensions_exchange (g : Str → Item E M → Item E M) (res : BMap (ResolvedItem E M)) (i : Item E M) :
    resolveDimensions (res.exchange g) i = resolveDimensions res i := by
  rw [resolveDimensions_def, resolveDimensions_def]
  congr 1
  apply Expr.mapM_congr
  intro a _
  cases a with
  | concrete c => rfl
  | other x => simp only [leafOf, BMap.get_exchange]; cases res.get x <;> rfl

variable {u u' : UnresolvedDefs E M} {defs : Defs E M} {res : BMap (ResolvedItem E M)}

/-- The heart of the matter: items may be exchanged for others that have the same value. -/
theorem Accepted.exchange (h : Accepted u defs res) (hauto : u'.quantityTypes = u.quantityTypes) (hdt : u'.dimensionTypes = u.dimensionTypes)
    (hbase : baseOf u'.units = baseOf u.units)
    (hbd : ∀ e ∈ u.dimensions, e.isBase = true → ∃ e' ∈ u'.dimensions, e'.isBase = true ∧ e'.name = e.name)
    (hbds : baseDimensions u'.dimensions = baseDimensions u.dimensions)
    (hsym : u'.units.filterMap UnitEntry.symbol = u.units.filterMap UnitEntry.symbol) (hnames : u'.names = u.names)
    (items : ∀ i' ∈ allItems u', ∃ i ∈ allItems u, i.Like i')
    (val : ∀ i' ∈ allItems u', ∀ i ∈ allItems u, i.ident = i'.ident → resolveDimensions res i' = resolveDimensions res i)
    (refs : ∀ i' ∈ allItems u', ∀ x ∈ i'.refs, x ∈ u.names)
    (kinds : ∀ i' ∈ allItems u', ∀ j ∈ allItems u, j.ident ∈ i'.refs → i'.kind.allows j.kind = true)
    (ground : ∀ x ∈ u.names, Grounded u'.definitions x) : ∃ res', Accepted u' defs res' := by
  have nd : ∀ (v : UnresolvedDefs E M), v.names.Nodup → ∀ i ∈ allItems v, ∀ j ∈ allItems v, i.ident = j.ident → i = j := by
    intro v hv
    rw [← allItems_ident] at hv
    generalize allItems v = l at hv
    induction l with
    | nil => simp
    | cons a l ih =>
      simp only [List.map_cons, List.nodup_cons, List.mem_map, not_exists, not_and] at hv
      intro i hi j hj e
      rcases List.mem_cons.1 hi with h1 | h1 <;> rcases List.mem_cons.1 hj with h2 | h2
      · rw [h1, h2]
      · exact absurd (h1 ▸ e.symm) (hv.1 j h2)
      · exact absurd (h2 ▸ e) (hv.1 i h1)
      · exact ih hv.2 i h1 j h2 e
  have nd' : u'.names.Nodup := hnames ▸ h.nodup
  let g : Str → Item E M → Item E M := fun k i => ((allItems u').find? fun j => decide (j.ident = k)).getD i
  have hg : ∀ i' ∈ allItems u', ∀ j, g i'.ident j = i' := by
    intro i' hi' j
    have : (allItems u').find? (fun j => decide (j.ident = i'.ident)) = some i' := by
      cases hf : (allItems u').find? (fun j => decide (j.ident = i'.ident)) with
      | none => have := List.find?_eq_none.1 hf i' hi'; simp at this
      | some i'' =>
        have h1 := List.find?_some hf
        have h2 := List.mem_of_find?_eq_some hf
        rw [nd u' nd' i'' h2 i' hi' (by simpa using h1)]
    simp only [g, this, Option.getD_some]
  have key : ∀ k r, res.get k = some r → ∃ i' ∈ allItems u', i'.ident = k ∧ r.item.Like i' ∧ g k r.item = i' := by
    intro k r hk
    obtain ⟨hm, hid⟩ := h.solution.only k r hk
    have hkn : k ∈ u'.names := by rw [hnames]; exact mem_names.2 ⟨_, hm, hid⟩
    obtain ⟨i', hi', hid'⟩ := mem_names.1 hkn
    obtain ⟨i, hi, hl⟩ := items i' hi'
    have : i = r.item := nd u h.nodup i hi r.item hm (by rw [hl.ident, hid', hid])
    subst this
    exact ⟨i', hi', hid', hl, by rw [← hid']; exact hg i' hi' _⟩
  have hlike : ∀ p ∈ res, p.2.item.Like (g p.1 p.2.item) := by
    rintro ⟨k, r⟩ hp
    obtain ⟨i', _, _, hl, he⟩ := key k r ((BMap.mem_iff_get h.solution.sorted).1 hp)
    simp only [he]; exact hl
  have hsorted : (res.exchange g).Sorted := by
    have := h.solution.sorted
    unfold BMap.Sorted at this ⊢
    have he : (res.exchange g).keys = res.keys := by
      unfold BMap.exchange BMap.keys
      rw [List.map_map]; rfl
    rw [he]; exact this
  obtain ⟨o1, o2, o3⟩ := BMap.exchange_out hlike
  have hS : Solution (allItems u') (res.exchange g) := by
    refine ⟨hsorted, fun i' hi' => ?_, fun k r hk => ?_⟩
    · obtain ⟨i, hi, hl⟩ := items i' hi'
      obtain ⟨d, hgd, he⟩ := h.solution.eqn i hi
      refine ⟨d, ?_, ?_⟩
      · rw [BMap.get_exchange, ← hl.ident, hgd]
        simp only [Option.map_some]
        rw [hl.ident, hg i' hi']
      · rw [resolveDimensions_exchange, val i' hi' i hi hl.ident, he]
    · rw [BMap.get_exchange] at hk
      obtain ⟨r0, hr0, rfl⟩ := Option.map_eq_some_iff.1 hk
      obtain ⟨i', hi', hid, _, he⟩ := key k r0 hr0
      simp only [he]
      exact ⟨hi', hid⟩
  refine ⟨res.exchange g, by rw [hauto, h.quantity], by rw [hdt, h.dimension], ⟨fun d hd => ?_, hbase ▸ h.base_units.2⟩, hsym ▸ h.symbols,
    by rw [hbds, h.base_dims], fun i' hi' x hx => hnames ▸ refs i' hi' x hx, nd', ?_, fun x hx => ground x (hnames ▸ hx), hS, ?_,
    by rw [o1, h.dims], by rw [o2, h.units], by rw [o3, h.constants], h.base_symbols⟩
  · rw [hbase] at hd
    obtain ⟨e, he, hb, hn⟩ := h.base_units.1 d hd
    obtain ⟨e', he', hb', hn'⟩ := hbd e he hb
    exact ⟨e', he', hb', by rw [hn', hn]⟩
  · intro i' hi' j' hj' hx
    obtain ⟨j, hj, hl⟩ := items j' hj'
    rw [← hl.kind]
    exact kinds i' hi' j hj (by rw [hl.ident]; exact hx)
  · rw [checkAnnotations_nil]
    rintro ⟨k, r⟩ hp a ha
    have hk := (BMap.mem_iff_get hsorted).1 hp
    rw [BMap.get_exchange] at hk
    obtain ⟨r0, hr0, rfl⟩ := Option.map_eq_some_iff.1 hk
    obtain ⟨i', hi', hid, hl, he⟩ := key k r0 hr0
    simp only [he] at ha ⊢
    rw [← hl.annotation] at ha
    obtain ⟨r1, hr1, hk1, heq⟩ := checkAnnotations_nil.1 h.annotations (k, r0) ((BMap.mem_iff_get h.solution.sorted).2 hr0) a ha
    obtain ⟨j', _, _, hlj, hej⟩ := key a r1 hr1
    refine ⟨⟨j', r1.dimensions⟩, ?_, ?_, heq⟩
    · rw [BMap.get_exchange, hr1]; simp only [Option.map_some, hej]
    · rw [← hlj.kind]; exact hk1


/-! ### Writing out keeps the value -/

/-- The value of an expression when its atoms have the values `φ`. -/
def Expr.sem {T : Type} (φ : T → Option (DM E M)) (e : Expr T E) : Option (DM E M) := (e.mapM φ).bind Expr.eval
def Factor.sem {T : Type} (φ : T → Option (DM E M)) (e : Factor T E) : Option (DM E M) := (e.mapM φ).bind Factor.eval

theorem Expr.sem_value {T : Type} (φ : T → Option (DM E M)) (f : Factor T E) : (Expr.value f).sem φ = f.sem φ := by
  unfold Expr.sem Factor.sem
  simp only [Expr.mapM]
  cases f.mapM φ <;> rfl

theorem Expr.sem_binary {T : Type} (φ : T → Option (DM E M)) (l : Expr T E) (o : Operator) (r : Factor T E) :
    (Expr.binary l o r).sem φ = (l.sem φ).bind fun a => (r.sem φ).bind fun b =>
      match o with | .mul => MulDiv.mul E a b | .div => MulDiv.div E a b := by
  unfold Expr.sem Factor.sem
  simp only [Expr.mapM]
  cases l.mapM φ with
  | none => rfl
  | some a =>
    cases r.mapM φ with
    | none => cases h : a.eval <;> simp [h]
    | some b => rfl

theorem Factor.sem_paren {T : Type} (φ : T → Option (DM E M)) (e : Expr T E) : (Factor.paren e).sem φ = e.sem φ := by
  unfold Expr.sem Factor.sem
  simp only [Factor.mapM]
  cases e.mapM φ <;> rfl

theorem Factor.sem_atom {T : Type} (φ : T → Option (DM E M)) (v : T) : (Factor.value v : Factor T E).sem φ = φ v := by
  unfold Factor.sem
  simp only [Factor.mapM]
  cases h : φ v <;> rfl

mutual
theorem Expr.WritesOut.sem {C : Type} {body : Str → Expr (Atom C) E → Prop} {φ : Atom C → Option (DM E M)}
    (hb : ∀ x b, body x b → b.sem φ = φ (.other x)) {e e' : Expr (Atom C) E} (h : e.WritesOut body e') : e'.sem φ = e.sem φ := by
  cases h with
  | value h => rw [Expr.sem_value, Expr.sem_value, h.sem hb]
  | binary hl hr => rw [Expr.sem_binary, Expr.sem_binary, hl.sem hb, hr.sem hb]
theorem Factor.WritesOut.sem {C : Type} {body : Str → Expr (Atom C) E → Prop} {φ : Atom C → Option (DM E M)}
    (hb : ∀ x b, body x b → b.sem φ = φ (.other x)) {e e' : Factor (Atom C) E} (h : e.WritesOut body e') : e'.sem φ = e.sem φ := by
  cases h with
  | same => rfl
  | paren h => rw [Factor.sem_paren, Factor.sem_paren, h.sem hb]
  | name h => rw [Factor.sem_paren, Factor.sem_atom, hb _ _ h]
end

mutual
theorem Expr.WritesOut.map {C D : Type} {body : Str → Expr (Atom C) E → Prop} {body' : Str → Expr (Atom D) E → Prop} (f : C → D)
    (hb : ∀ x b, body x b → body' x (b.map (Atom.mapConcrete f))) {e e' : Expr (Atom C) E} (h : e.WritesOut body e') :
    (e.map (Atom.mapConcrete f)).WritesOut body' (e'.map (Atom.mapConcrete f)) := by
  cases h with
  | value h => exact .value (h.map f hb)
  | binary hl hr => exact .binary (hl.map f hb) (hr.map f hb)
theorem Factor.WritesOut.map {C D : Type} {body : Str → Expr (Atom C) E → Prop} {body' : Str → Expr (Atom D) E → Prop} (f : C → D)
    (hb : ∀ x b, body x b → body' x (b.map (Atom.mapConcrete f))) {e e' : Factor (Atom C) E} (h : e.WritesOut body e') :
    (e.map (Atom.mapConcrete f)).WritesOut body' (e'.map (Atom.mapConcrete f)) := by
  cases h with
  | same => exact .same _
  | paren h => exact .paren (h.map f hb)
  | name h => exact .name (hb _ _ h)
end

theorem Expr.WritesOut.refl {C : Type} {body : Str → Expr (Atom C) E → Prop} (e : Expr (Atom C) E) : e.WritesOut body e := by
  match e with
  | .value f => exact .value (.same f)
  | .binary l o r => exact .binary (Expr.WritesOut.refl l) (.same r)

/-! ### Which names occur -/

mutual
/-- The number of parts of an expression. -/
def Expr.weight {T : Type} : Expr T E → Nat
  | .value f => f.weight
  | .binary l _ r => l.weight + r.weight
def Factor.weight {T : Type} : Factor T E → Nat
  | .value _ => 1
  | .power _ _ => 1
  | .paren e => e.weight + 1
end

mutual
/-- Names after writing out: old ones, or names from the definitions that were inserted. -/
theorem Expr.WritesOut.idents {C : Type} {body : Str → Expr (Atom C) E → Prop} {e e' : Expr (Atom C) E} (h : e.WritesOut body e') {x : Str}
    (hx : x ∈ e'.idents) : x ∈ e.idents ∨ ∃ y b, y ∈ e.idents ∧ body y b ∧ x ∈ b.idents := by
  cases h with
  | value h => exact h.idents hx
  | binary hl hr =>
    simp only [Expr.idents, List.mem_append] at hx ⊢
    rcases hx with hx | hx
    · rcases hl.idents hx with h | ⟨y, b, h1, h2⟩
      · exact .inl (.inl h)
      · exact .inr ⟨y, b, .inl h1, h2⟩
    · rcases hr.idents hx with h | ⟨y, b, h1, h2⟩
      · exact .inl (.inr h)
      · exact .inr ⟨y, b, .inr h1, h2⟩
theorem Factor.WritesOut.idents {C : Type} {body : Str → Expr (Atom C) E → Prop} {e e' : Factor (Atom C) E} (h : e.WritesOut body e')
    {x : Str} (hx : x ∈ e'.idents) : x ∈ e.idents ∨ ∃ y b, y ∈ e.idents ∧ body y b ∧ x ∈ b.idents := by
  cases h with
  | same => exact .inl hx
  | paren h => exact h.idents hx
  | name h => exact .inr ⟨_, _, by simp [Factor.idents], h, hx⟩
end

mutual
/-- Names before writing out: they are still there, or their definition is a part of the new expression. -/
theorem Expr.WritesOut.idents_inv {C : Type} {body : Str → Expr (Atom C) E → Prop} {e e' : Expr (Atom C) E} (h : e.WritesOut body e')
    {x : Str} (hx : x ∈ e.idents) : x ∈ e'.idents ∨ ∃ b, body x b ∧ (∀ y ∈ b.idents, y ∈ e'.idents) ∧ b.weight < e'.weight := by
  cases h with
  | value h => exact h.idents_inv hx
  | binary hl hr =>
    simp only [Expr.idents, List.mem_append, Expr.weight] at hx ⊢
    rcases hx with hx | hx
    · rcases hl.idents_inv hx with h | ⟨b, h1, h2, h3⟩
      · exact .inl (.inl h)
      · exact .inr ⟨b, h1, fun y hy => .inl (h2 y hy), by omega⟩
    · rcases hr.idents_inv hx with h | ⟨b, h1, h2, h3⟩
      · exact .inl (.inr h)
      · exact .inr ⟨b, h1, fun y hy => .inr (h2 y hy), by omega⟩
theorem Factor.WritesOut.idents_inv {C : Type} {body : Str → Expr (Atom C) E → Prop} {e e' : Factor (Atom C) E} (h : e.WritesOut body e')
    {x : Str} (hx : x ∈ e.idents) : x ∈ e'.idents ∨ ∃ b, body x b ∧ (∀ y ∈ b.idents, y ∈ e'.idents) ∧ b.weight < e'.weight := by
  cases h with
  | same => exact .inl hx
  | paren h =>
    rcases h.idents_inv hx with h | ⟨b, h1, h2, h3⟩
    · exact .inl h
    · exact .inr ⟨b, h1, h2, by simp only [Factor.weight]; omega⟩
  | name h =>
    simp only [Factor.idents, List.mem_singleton] at hx
    subst hx
    exact .inr ⟨_, h, fun y hy => hy, by simp [Factor.weight]⟩
end

/-! ### Systems item by item -/

/-- `j` may stand for its name in the definition of an item of kind `k`. -/
def Item.Body (l : List (Item E M)) (k : Kind) (x : Str) (b : Expr (Atom (DM E M)) E) : Prop :=
  ∃ j ∈ l, j.ident = x ∧ j.expr = b ∧ k.allows j.kind = true ∧ j.kind ≠ .baseUnit

theorem Kind.allows_trans {a b c : Kind} (h : a.allows b = true) (hb : b ≠ .baseUnit) (h' : b.allows c = true) : a.allows c = true := by
  cases a <;> cases b <;> cases c <;> simp_all [Kind.allows]

/-- `i'` is `i` with names written out. -/
structure Item.Out (l : List (Item E M)) (i i' : Item E M) : Prop where
  like : i.Like i'
  expr : i.expr.WritesOut (Item.Body l i.kind) i'.expr

theorem Solution.body_sem {l : List (Item E M)} {res : BMap (ResolvedItem E M)} (h : Solution l res) {k : Kind} (x : Str)
    (b : Expr (Atom (DM E M)) E) (hb : Item.Body l k x b) : b.sem (leafOf res) = leafOf res (.other x) := by
  obtain ⟨j, hj, rfl, rfl, _⟩ := hb
  obtain ⟨d, hg, he⟩ := h.eqn j hj
  rw [resolveDimensions_def] at he
  unfold Expr.sem
  rw [he]
  simp [leafOf, hg]

theorem Item.Out.value {l : List (Item E M)} {res : BMap (ResolvedItem E M)} (h : Solution l res) {i i' : Item E M} (ho : Item.Out l i i') :
    resolveDimensions res i' = resolveDimensions res i := by
  rw [resolveDimensions_def, resolveDimensions_def]
  exact ho.expr.sem (fun x b => h.body_sem x b)

theorem Item.refs_idents (i : Item E M) : i.refs = i.expr.idents := Item.refs_eq i

/-- Everything but the expressions agrees. -/
structure Frame (u u' : UnresolvedDefs E M) : Prop where
  quantity : u'.quantityTypes = u.quantityTypes
  dimension : u'.dimensionTypes = u.dimensionTypes
  base : baseOf u'.units = baseOf u.units
  baseDim : ∀ e ∈ u.dimensions, e.isBase = true → ∃ e' ∈ u'.dimensions, e'.isBase = true ∧ e'.name = e.name
  baseDims : baseDimensions u'.dimensions = baseDimensions u.dimensions
  symbols : u'.units.filterMap UnitEntry.symbol = u.units.filterMap UnitEntry.symbol
  names : u'.names = u.names

theorem Item.Like.symm {i i' : Item E M} (h : i.Like i') : i'.Like i := ⟨h.ident.symm, h.kind.symm, h.annotation.symm, h.symbol.symm⟩

theorem items_unique {v : UnresolvedDefs E M} (hv : v.names.Nodup) : ∀ i ∈ allItems v, ∀ j ∈ allItems v, i.ident = j.ident → i = j := by
  rw [← allItems_ident] at hv
  generalize allItems v = l at hv
  induction l with
  | nil => simp
  | cons a l ih =>
    simp only [List.map_cons, List.nodup_cons, List.mem_map, not_exists, not_and] at hv
    intro i hi j hj e
    rcases List.mem_cons.1 hi with h1 | h1 <;> rcases List.mem_cons.1 hj with h2 | h2
    · rw [h1, h2]
    · exact absurd (h1 ▸ e.symm) (hv.1 j h2)
    · exact absurd (h2 ▸ e) (hv.1 i h1)
    · exact ih hv.2 i h1 j h2 e

theorem Accepted.write_out (h : Accepted u defs res) (frame : Frame u u') (pairs : List.Forall₂ (Item.Out (allItems u)) (allItems u) (allItems u')) :
    ∃ res', Accepted u' defs res' := by
  have hr : ∀ i' ∈ allItems u', ∃ i ∈ allItems u, Item.Out (allItems u) i i' := fun i' hi' => by
    obtain ⟨i, hi, ho⟩ := forall₂_mem_right pairs hi'
    exact ⟨i, hi, ho⟩
  have hl : ∀ i ∈ allItems u, ∃ i' ∈ allItems u', Item.Out (allItems u) i i' := fun i hi => by
    obtain ⟨i', hi', ho⟩ := forall₂_mem_left pairs hi
    exact ⟨i', hi', ho⟩
  have refs : ∀ {i i'}, i ∈ allItems u → Item.Out (allItems u) i i' → ∀ x ∈ i'.refs, x ∈ i.refs ∨
      ∃ j ∈ allItems u, j.ident ∈ i.refs ∧ x ∈ j.refs ∧ i.kind.allows j.kind = true ∧ j.kind ≠ .baseUnit := by
    intro i i' hi ho x hx
    rw [Item.refs_idents] at hx
    rcases ho.expr.idents hx with h | ⟨y, b, h1, ⟨j, hj, rfl, rfl, h3, h4⟩, h2⟩
    · exact .inl (by rwa [Item.refs_idents])
    · exact .inr ⟨j, hj, by rwa [Item.refs_idents], by rwa [Item.refs_idents], h3, h4⟩
  refine h.exchange frame.quantity frame.dimension frame.base frame.baseDim frame.baseDims frame.symbols frame.names ?_ ?_ ?_ ?_ ?_
  · intro i' hi'
    obtain ⟨i, hi, ho⟩ := hr i' hi'
    exact ⟨i, hi, ho.like⟩
  · intro i' hi' i hi he
    obtain ⟨i0, hi0, ho⟩ := hr i' hi'
    have := items_unique h.nodup i hi i0 hi0 (he.trans ho.like.ident.symm)
    subst this
    exact ho.value h.solution
  · intro i' hi' x hx
    obtain ⟨i, hi, ho⟩ := hr i' hi'
    rcases refs hi ho x hx with h1 | ⟨j, hj, _, h1, _⟩
    · exact h.defined i hi x h1
    · exact h.defined j hj x h1
  · intro i' hi' k hk hx
    obtain ⟨i, hi, ho⟩ := hr i' hi'
    rw [← ho.like.kind]
    rcases refs hi ho _ hx with h1 | ⟨j, hj, _, h1, h2, h3⟩
    · exact h.kinds i hi k hk h1
    · exact Kind.allows_trans h2 h3 (h.kinds j hj k hk h1)
  · have key : ∀ x, Grounded u.definitions x → Grounded u'.definitions x ∧ ∀ i ∈ allItems u, i.ident = x → ∀ y ∈ i.refs, Grounded u'.definitions y := by
      intro x hx
      induction hx with
      | intro x rs hx _ ih =>
        have hrs : ∀ i ∈ allItems u, i.ident = x → i.refs = rs := by
          rintro i hi rfl
          exact defs_unique (by rw [← itemDefs_allItems, itemDefs_names, allItems_ident]; exact h.nodup) (item_definition hi) hx
        rw [← itemDefs_allItems] at hx
        obtain ⟨i, hi, rfl, rfl⟩ := mem_itemDefs.1 hx
        refine ⟨?_, fun j hj hji y hy => (ih y (hrs j hj hji ▸ hy)).1⟩
        obtain ⟨i', hi', ho⟩ := hl i hi
        rw [ho.like.ident]
        refine .intro _ _ (item_definition hi') fun y hy => ?_
        rcases refs hi ho y hy with h1 | ⟨j, hj, h1, h2, _⟩
        · exact (ih y h1).1
        · exact (ih _ h1).2 j hj rfl y h2
    exact fun x hx => (key x (h.grounded x hx)).1

theorem Accepted.name_parts (h : Accepted u defs res) (frame : Frame u u') (pairs : List.Forall₂ (Item.Out (allItems u)) (allItems u') (allItems u)) :
    ∃ res', Accepted u' defs res' := by
  have hl : ∀ i' ∈ allItems u', ∃ i ∈ allItems u, Item.Out (allItems u) i' i := fun i' hi' => by
    obtain ⟨i, hi, ho⟩ := forall₂_mem_left pairs hi'
    exact ⟨i, hi, ho⟩
  have hr : ∀ i ∈ allItems u, ∃ i' ∈ allItems u', Item.Out (allItems u) i' i := fun i hi => by
    obtain ⟨i', hi', ho⟩ := forall₂_mem_right pairs hi
    exact ⟨i', hi', ho⟩
  have refs : ∀ {i i'}, Item.Out (allItems u) i' i → ∀ x ∈ i'.refs, x ∈ i.refs ∨
      ∃ j ∈ allItems u, j.ident = x ∧ (∀ y ∈ j.refs, y ∈ i.refs) ∧ j.expr.weight < i.expr.weight ∧ i'.kind.allows j.kind = true := by
    intro i i' ho x hx
    rw [Item.refs_idents] at hx
    rcases ho.expr.idents_inv hx with h | ⟨b, ⟨j, hj, rfl, rfl, h3, h4⟩, h1, h2⟩
    · exact .inl (by rwa [Item.refs_idents])
    · exact .inr ⟨j, hj, rfl, by simpa only [Item.refs_idents] using h1, h2, h3⟩
  refine h.exchange frame.quantity frame.dimension frame.base frame.baseDim frame.baseDims frame.symbols frame.names ?_ ?_ ?_ ?_ ?_
  · intro i' hi'
    obtain ⟨i, hi, ho⟩ := hl i' hi'
    exact ⟨i, hi, ho.like.symm⟩
  · intro i' hi' i hi he
    obtain ⟨i0, hi0, ho⟩ := hl i' hi'
    have := items_unique h.nodup i hi i0 hi0 (he.trans ho.like.ident)
    subst this
    exact (ho.value h.solution).symm
  · intro i' hi' x hx
    obtain ⟨i, hi, ho⟩ := hl i' hi'
    rcases refs ho x hx with h1 | ⟨j, hj, rfl, _⟩
    · exact h.defined i hi x h1
    · exact mem_names.2 ⟨j, hj, rfl⟩
  · intro i' hi' k hk hx
    obtain ⟨i, hi, ho⟩ := hl i' hi'
    rcases refs ho _ hx with h1 | ⟨j, hj, h1, _, _, h2⟩
    · rw [ho.like.kind]; exact h.kinds i hi k hk h1
    · rwa [items_unique h.nodup k hk j hj h1.symm]
  · have small : ∀ n, ∀ i ∈ allItems u, i.expr.weight < n → (∀ y ∈ i.refs, Grounded u'.definitions y) → Grounded u'.definitions i.ident := by
      intro n
      induction n with
      | zero => intro i _ hn; omega
      | succ n ih =>
        intro i hi hn hy
        obtain ⟨i', hi', ho⟩ := hr i hi
        rw [← ho.like.ident]
        refine .intro _ _ (item_definition hi') fun x hx => ?_
        rcases refs ho x hx with h1 | ⟨j, hj, rfl, h1, h2, _⟩
        · exact hy x h1
        · exact ih j hj (by omega) fun y hy' => hy y (h1 y hy')
    intro x hx
    have := h.grounded x hx
    clear hx
    induction this with
    | intro x rs hx _ ih =>
      rw [← itemDefs_allItems] at hx
      obtain ⟨i, hi, rfl, rfl⟩ := mem_itemDefs.1 hx
      exact small _ i hi (Nat.lt_succ_self _) ih


/-! ### Systems statement by statement -/

/-- Two expanded unit statements that differ at most in the expression. -/
structure UnitEntry.Related (R : Expr (Atom M) E → Expr (Atom M) E → Prop) (x x' : UnitEntry E M) : Prop where
  name : x.name = x'.name
  symbol : x.symbol = x'.symbol
  annotation : x.annotation = x'.annotation
  auto : x.autogeneratedFrom = x'.autogeneratedFrom
  definition : Definition.Related R x.definition x'.definition

theorem UnitTemplate.Related.expand {R : Expr (Atom M) E → Expr (Atom M) E → Prop} (hR : ∀ e, R e e) {x x' : UnitTemplate E M}
    (h : x.Related R x') (one : M) (factor : Prefix → M) :
    List.Forall₂ (UnitEntry.Related R) (x.expand one factor) (x'.expand one factor) := by
  unfold UnitTemplate.expand
  rw [← h.aliases, ← h.prefixes]
  have one_by_one : ∀ pre al, UnitEntry.Related R (x.expandOne one factor pre al) (x'.expandOne one factor pre al) := by
    intro pre al
    refine ⟨?_, ?_, h.annotation, ?_, ?_⟩
    · simp only [UnitTemplate.expandOne, UnitTemplate.formatName, h.name]
    · simp only [UnitTemplate.expandOne, UnitTemplate.formatSymbol, h.symbol]
    · simp only [UnitTemplate.expandOne, h.name]
    · simp only [UnitTemplate.expandOne, UnitTemplate.getDefinition, h.name]
      split
      · exact h.definition
      · exact .expression (hR _)
  refine forall₂_flatMap (R := Eq) (List.forall₂_refl _) ?_
  rintro a _ rfl
  rw [List.forall₂_map_left_iff, List.forall₂_map_right_iff]
  exact List.forall₂_same.2 fun al _ => one_by_one a al

theorem Definition.Related.isBase {R : Expr (Atom Unit) E → Expr (Atom Unit) E → Prop} {a b : DimensionEntry E}
    (h : Definition.Related R a.rhs b.rhs) : b.isBase = a.isBase := by
  unfold DimensionEntry.isBase
  generalize a.rhs = da at *
  generalize b.rhs = db at *
  cases h <;> rfl

/-- Related systems have the same frame, and their items are related. -/
theorem UnresolvedTemplates.Related.frame {RD : Expr (Atom Unit) E → Expr (Atom Unit) E → Prop} {RV : Expr (Atom M) E → Expr (Atom M) E → Prop}
    (hV : ∀ e, RV e e) {t t' : UnresolvedTemplates E M} (h : t.Related RD RV t') (one : M) (factor : Prefix → M) :
    Frame (UnresolvedTemplates.expand one factor t) (UnresolvedTemplates.expand one factor t') ∧
    List.Forall₂ (UnitEntry.Related RV) (UnresolvedTemplates.expand one factor t).units (UnresolvedTemplates.expand one factor t').units := by
  have hu : List.Forall₂ (UnitEntry.Related RV) (UnresolvedTemplates.expand one factor t).units (UnresolvedTemplates.expand one factor t').units :=
    forall₂_flatMap h.units fun a b hab => hab.expand hV one factor
  have isBase : ∀ a b : DimensionEntry E, a.Related RD b → b.isBase = a.isBase := by
    intro a b hab
    exact hab.rhs.isBase
  refine ⟨⟨h.quantityTypes.symm, h.dimensionTypes.symm, ?_, ?_, ?_, ?_, ?_⟩, hu⟩
  · refine forall₂_filterMap_eq hu fun a b hab => ?_
    rw [hab.auto]
    have hd := hab.definition
    generalize a.definition = da at *
    generalize b.definition = db at *
    cases hd <;> rfl
  · intro e he hb
    obtain ⟨e', he', hr⟩ := forall₂_mem_left h.dimensions he
    exact ⟨e', he', by rw [isBase _ _ hr, hb], hr.name.symm⟩
  · have := forall₂_filterMap_eq h.dimensions (f := fun d => if d.isBase then some (toSnakecase d.name) else none)
      (g := fun d => if d.isBase then some (toSnakecase d.name) else none) fun a b hab => by simp only [isBase a b hab, hab.name]
    have conv : ∀ l : List (DimensionEntry E), baseDimensions l = l.filterMap (fun d => if d.isBase then some (toSnakecase d.name) else none) := by
      intro l
      unfold baseDimensions
      induction l with
      | nil => rfl
      | cons a l ih => cases hb : a.isBase <;> simp [hb, ih]
    rw [conv, conv]
    exact this
  · exact forall₂_filterMap_eq hu fun a b hab => hab.symbol.symm
  · unfold Unresolved.names
    rw [C54.forall₂_map_eq hu fun a b hab => hab.name.symm]
    congr 1
    · congr 1
      exact C54.forall₂_map_eq h.dimensions fun a b hab => hab.name.symm
    · exact C54.forall₂_map_eq h.constants fun a b hab => hab.name.symm

theorem UnresolvedTemplates.Related.items {RD : Expr (Atom Unit) E → Expr (Atom Unit) E → Prop} {RV : Expr (Atom M) E → Expr (Atom M) E → Prop}
    (hV : ∀ e, RV e e) {t t' : UnresolvedTemplates E M} (h : t.Related RD RV t') (one : M) (factor : Prefix → M)
    {R : Kind → Expr (Atom (DM E M)) E → Expr (Atom (DM E M)) E → Prop} (hR : ∀ k e, R k e e)
    (hd : ∀ e e', RD e e' → R .dimension (e.map (Atom.mapConcrete fun _ => DM.dimensions [])) (e'.map (Atom.mapConcrete fun _ => DM.dimensions [])))
    (hu : ∀ e e', RV e e' → R .unit (e.map (Atom.mapConcrete DM.magnitude)) (e'.map (Atom.mapConcrete DM.magnitude)))
    (hc : ∀ e e', RV e e' → R .constant (e.map (Atom.mapConcrete DM.magnitude)) (e'.map (Atom.mapConcrete DM.magnitude))) :
    List.Forall₂ (fun i i' : Item E M => i.Like i' ∧ R i.kind i.expr i'.expr) (allItems (UnresolvedTemplates.expand one factor t))
      (allItems (UnresolvedTemplates.expand one factor t')) := by
  unfold allItems
  refine List.rel_append (List.rel_append ?_ ?_) ?_
  · rw [List.forall₂_map_left_iff, List.forall₂_map_right_iff]
    refine h.dimensions.imp fun a b hab => ⟨⟨hab.name, rfl, rfl, rfl⟩, ?_⟩
    change R .dimension _ _
    unfold Item.ofDimension
    cases h1 : a.rhs with
    | base x =>
      have := hab.rhs
      rw [h1] at this
      cases hb : b.rhs with
      | base y => simp only [hab.name]; exact hR _ _
      | expression y => rw [hb] at this; cases this
    | expression x =>
      have := hab.rhs
      rw [h1] at this
      cases hb : b.rhs with
      | base y => rw [hb] at this; cases this
      | expression y => rw [hb] at this; cases this with | expression h => exact hd _ _ h
  · rw [List.forall₂_map_left_iff, List.forall₂_map_right_iff]
    refine (h.frame hV one factor).2.imp fun a b hab => ?_
    cases h1 : a.definition with
    | base x =>
      have := hab.definition
      rw [h1] at this
      cases hb : b.definition with
      | base y =>
        rw [hb] at this
        cases this
        refine ⟨⟨hab.name, by simp [Item.kind, Item.ofUnit, h1, hb], hab.annotation, hab.symbol⟩, ?_⟩
        simp only [Item.ofUnit, h1, hb]
        exact hR _ _
      | expression y => rw [hb] at this; cases this
    | expression x =>
      have := hab.definition
      rw [h1] at this
      cases hb : b.definition with
      | base y => rw [hb] at this; cases this
      | expression y =>
        rw [hb] at this
        cases this with
        | expression h =>
          refine ⟨⟨hab.name, by simp [Item.kind, Item.ofUnit, h1, hb], hab.annotation, hab.symbol⟩, ?_⟩
          have hk : (Item.ofUnit a).kind = .unit := by simp [Item.kind, Item.ofUnit, h1]
          rw [hk]
          simp only [Item.ofUnit, h1, hb]
          exact hu _ _ h
  · rw [List.forall₂_map_left_iff, List.forall₂_map_right_iff]
    exact h.constants.imp fun a b hab => ⟨⟨hab.name, rfl, hab.annotation, rfl⟩, hc _ _ hab.rhs⟩

theorem dimensionBody_item {v : UnresolvedDefs E M} (x : Str) (b : Expr (Atom Unit) E) (h : v.DimensionBody x b) :
    Item.Body (allItems v) .dimension x (b.map (Atom.mapConcrete fun _ => (DM.dimensions [] : DM E M))) := by
  obtain ⟨d, hd, rfl, hb⟩ := h
  refine ⟨.ofDimension d, mem_allItems.2 (.inl ⟨d, hd, rfl⟩), rfl, ?_, rfl, by simp [Item.ofDimension, Item.kind]⟩
  simp only [Item.ofDimension, hb]

theorem valueBody_item {v : UnresolvedDefs E M} {k : Kind} (hk : k = .unit ∨ k = .constant) (x : Str) (b : Expr (Atom M) E) (h : v.ValueBody x b) :
    Item.Body (allItems v) k x (b.map (Atom.mapConcrete DM.magnitude)) := by
  rcases h with ⟨y, hy, rfl, hb⟩ | ⟨y, hy, rfl, rfl⟩
  · have h1 : (Item.ofUnit y).kind = .unit := by simp [Item.kind, Item.ofUnit, hb]
    refine ⟨.ofUnit y, mem_allItems.2 (.inr (.inl ⟨y, hy, rfl⟩)), rfl, by simp only [Item.ofUnit, hb], ?_, by rw [h1]; simp⟩
    rw [h1]
    rcases hk with rfl | rfl <;> rfl
  · refine ⟨.ofConstant y, mem_allItems.2 (.inr (.inr ⟨y, hy, rfl⟩)), rfl, rfl, ?_, by simp [Item.ofConstant, Item.kind]⟩
    rcases hk with rfl | rfl <;> rfl

theorem WritesOut.items {v : UnresolvedDefs E M} {t t' : UnresolvedTemplates E M} (h : WritesOut v t t') (one : M) (factor : Prefix → M) :
    List.Forall₂ (Item.Out (allItems v)) (allItems (UnresolvedTemplates.expand one factor t))
      (allItems (UnresolvedTemplates.expand one factor t')) := by
  refine (UnresolvedTemplates.Related.items (fun e => Expr.WritesOut.refl e) h one factor
    (R := fun k e e' => e.WritesOut (Item.Body (allItems v) k) e') (fun k e => Expr.WritesOut.refl e) ?_ ?_ ?_).imp fun i i' ⟨h1, h2⟩ => ⟨h1, h2⟩
  · exact fun e e' he => he.map _ dimensionBody_item
  · exact fun e e' he => he.map _ (valueBody_item (.inl rfl))
  · exact fun e e' he => he.map _ (valueBody_item (.inr rfl))

/-- **C54.** Writing names out: replacing names in the definitions of an accepted unit system by their own definitions, in parentheses, gives
an accepted unit system with exactly the same dimensions, units and constants. -/
theorem C54_write_out (factor : Prefix → M) (t t' : UnresolvedTemplates E M)
    (written : WritesOut (UnresolvedTemplates.expand (MagOps.one E) factor t) t t') (defs : Defs E M)
    (accepted : runUnitSystem factor t = some (defs, [])) : runUnitSystem factor t' = some (defs, []) := by
  obtain ⟨res, h⟩ := accepted_of_run accepted
  exact (accepted_iff (expand_autoOk _ _ t')).2 (h.write_out (written.frame (fun e => Expr.WritesOut.refl e) _ _).1 (written.items _ _))

theorem Frame.symm' {t t' : UnresolvedTemplates E M} {v : UnresolvedDefs E M} (h : WritesOut v t t') (one : M) (factor : Prefix → M) :
    Frame (UnresolvedTemplates.expand one factor t') (UnresolvedTemplates.expand one factor t) := by
  have f := (h.frame (fun e => Expr.WritesOut.refl e) one factor).1
  refine ⟨f.quantity.symm, f.dimension.symm, f.base.symm, ?_, f.baseDims.symm, f.symbols.symm, f.names.symm⟩
  intro e he hb
  obtain ⟨e', he', hr⟩ := forall₂_mem_right h.dimensions he
  refine ⟨e', he', ?_, hr.name⟩
  rw [← hb]
  exact hr.rhs.isBase.symm

/-- **C54.** Naming parts: where a definition of an accepted unit system contains, in parentheses, what is also the definition of some name,
the name can be written instead; the result is accepted and has exactly the same dimensions, units and constants. -/
theorem C54_name_parts (factor : Prefix → M) (t t' : UnresolvedTemplates E M)
    (written : WritesOut (UnresolvedTemplates.expand (MagOps.one E) factor t') t t') (defs : Defs E M)
    (accepted : runUnitSystem factor t' = some (defs, [])) : runUnitSystem factor t = some (defs, []) := by
  obtain ⟨res, h⟩ := accepted_of_run accepted
  exact (accepted_iff (expand_autoOk _ _ t)).2 (h.name_parts (Frame.symm' written _ _) (written.items _ _))

/-! ### Parentheses -/

mutual
theorem Expr.Parenthesises.sem {C : Type} {φ : Atom C → Option (DM E M)} {e e' : Expr (Atom C) E} (h : e.Parenthesises e') : e'.sem φ = e.sem φ := by
  cases h with
  | value h => rw [Expr.sem_value, Expr.sem_value, h.sem]
  | binary hl hr => rw [Expr.sem_binary, Expr.sem_binary, hl.sem, hr.sem]
  | wrap h => rw [Expr.sem_value, Factor.sem_paren, h.sem]
theorem Factor.Parenthesises.sem {C : Type} {φ : Atom C → Option (DM E M)} {e e' : Factor (Atom C) E} (h : e.Parenthesises e') :
    e'.sem φ = e.sem φ := by
  cases h with
  | same => rfl
  | paren h => rw [Factor.sem_paren, Factor.sem_paren, h.sem]
  | wrap h => rw [Factor.sem_paren, Expr.sem_value, h.sem]
end

mutual
theorem Expr.Parenthesises.map {C D : Type} (f : C → D) {e e' : Expr (Atom C) E} (h : e.Parenthesises e') :
    (e.map (Atom.mapConcrete f)).Parenthesises (e'.map (Atom.mapConcrete f)) := by
  cases h with
  | value h => exact .value (h.map f)
  | binary hl hr => exact .binary (hl.map f) (hr.map f)
  | wrap h => exact .wrap (h.map f)
theorem Factor.Parenthesises.map {C D : Type} (f : C → D) {e e' : Factor (Atom C) E} (h : e.Parenthesises e') :
    (e.map (Atom.mapConcrete f)).Parenthesises (e'.map (Atom.mapConcrete f)) := by
  cases h with
  | same => exact .same _
  | paren h => exact .paren (h.map f)
  | wrap h => exact .wrap (h.map f)
end

mutual
theorem Expr.Parenthesises.idents {C : Type} {e e' : Expr (Atom C) E} (h : e.Parenthesises e') : e'.idents = e.idents := by
  cases h with
  | value h => exact h.idents
  | binary hl hr => simp only [Expr.idents, hl.idents, hr.idents]
  | wrap h => exact h.idents
theorem Factor.Parenthesises.idents {C : Type} {e e' : Factor (Atom C) E} (h : e.Parenthesises e') : e'.idents = e.idents := by
  cases h with
  | same => rfl
  | paren h => exact h.idents
  | wrap h => exact h.idents
end

theorem Expr.Parenthesises.refl {C : Type} (e : Expr (Atom C) E) : e.Parenthesises e := by
  match e with
  | .value f => exact .value (.same f)
  | .binary l o r => exact .binary (Expr.Parenthesises.refl l) (.same r)

/-- Items that have the same names in them and the same value in every context. -/
theorem Accepted.same_value (h : Accepted u defs res) (frame : Frame u u')
    (pairs : List.Forall₂ (fun i i' : Item E M => i.Like i' ∧ i'.refs = i.refs ∧ resolveDimensions res i' = resolveDimensions res i)
      (allItems u) (allItems u')) : ∃ res', Accepted u' defs res' := by
  refine h.exchange frame.quantity frame.dimension frame.base frame.baseDim frame.baseDims frame.symbols frame.names ?_ ?_ ?_ ?_ ?_
  · intro i' hi'
    obtain ⟨i, hi, ho, _⟩ := forall₂_mem_right pairs hi'
    exact ⟨i, hi, ho⟩
  · intro i' hi' i hi he
    obtain ⟨i0, hi0, ho, _, hv⟩ := forall₂_mem_right pairs hi'
    have := items_unique h.nodup i hi i0 hi0 (he.trans ho.ident.symm)
    subst this
    exact hv
  · intro i' hi' x hx
    obtain ⟨i, hi, _, hr, _⟩ := forall₂_mem_right pairs hi'
    exact h.defined i hi x (hr ▸ hx)
  · intro i' hi' k hk hx
    obtain ⟨i, hi, ho, hr, _⟩ := forall₂_mem_right pairs hi'
    rw [← ho.kind]
    exact h.kinds i hi k hk (hr ▸ hx)
  · have : u'.definitions = u.definitions := by
      rw [← itemDefs_allItems, ← itemDefs_allItems]
      exact C54.forall₂_map_eq pairs fun a b hab => by rw [hab.1.ident, hab.2.1]
    rw [this]
    exact h.grounded

/-- **C54.** Parentheses that do not change the grouping change nothing: with or without them the unit system is accepted or not, and if
it is, it has exactly the same dimensions, units and constants. -/
theorem C54_parentheses (factor : Prefix → M) (t t' : UnresolvedTemplates E M) (parens : Parenthesises t t') (defs : Defs E M) :
    runUnitSystem factor t = some (defs, []) ↔ runUnitSystem factor t' = some (defs, []) := by
  have frame := (parens.frame (fun e => Expr.Parenthesises.refl e) (MagOps.one E) factor).1
  have items := UnresolvedTemplates.Related.items (fun e => Expr.Parenthesises.refl e) parens (MagOps.one E) factor
    (R := fun _ e e' => e.Parenthesises e') (fun _ e => Expr.Parenthesises.refl e) (fun e e' h => h.map _) (fun e e' h => h.map _)
    (fun e e' h => h.map _)
  have value : ∀ (res : BMap (ResolvedItem E M)) (i i' : Item E M), i.expr.Parenthesises i'.expr → resolveDimensions res i' = resolveDimensions res i := by
    intro res i i' h
    rw [resolveDimensions_def, resolveDimensions_def]
    exact h.sem
  constructor
  · intro accepted
    obtain ⟨res, h⟩ := accepted_of_run accepted
    exact (accepted_iff (expand_autoOk _ _ t')).2 (h.same_value frame (items.imp fun i i' ⟨h1, h2⟩ =>
      ⟨h1, by rw [Item.refs_idents, Item.refs_idents, h2.idents], value res i i' h2⟩))
  · intro accepted
    obtain ⟨res, h⟩ := accepted_of_run accepted
    have frame' : Frame (UnresolvedTemplates.expand (MagOps.one E) factor t') (UnresolvedTemplates.expand (MagOps.one E) factor t) := by
      refine ⟨frame.quantity.symm, frame.dimension.symm, frame.base.symm, ?_, frame.baseDims.symm, frame.symbols.symm, frame.names.symm⟩
      intro e he hb
      obtain ⟨e', he', hr⟩ := forall₂_mem_right parens.dimensions he
      refine ⟨e', he', ?_, hr.name⟩
      rw [← hb]
      exact hr.rhs.isBase.symm
    refine (accepted_iff (expand_autoOk _ _ t)).2 (h.same_value frame' ?_)
    exact List.Forall₂.flip (items.imp fun i i' ⟨h1, h2⟩ =>
      ⟨h1.symm, by rw [Item.refs_idents, Item.refs_idents, h2.idents], (value res i i' h2).symm⟩)

end

/-! ### Examples -/
section Example
attribute [local instance] Sample.exactMag
open Sample

/-- The sample system with three names written out: `Force = (Mass * Velocity * Velocity) / Length`,
`newtons = (kilograms * meters_per_second^2) / meters`, `SOLAR_MASS_GRAMS = 1988477e27 * (1e-3 * kilograms)`. -/
def C54.written : UnresolvedTemplates Int ℚ :=
  { sample with
    dimensions := sample.dimensions.take 9 ++ [
      ⟨str!"Force", .expression (.binary (.value (.paren (.binary (.binary (.value (v (str!"Mass"))) .mul (v (str!"Velocity"))) .mul
        (v (str!"Velocity"))))) .div (v (str!"Length")))⟩,
      ⟨str!"InverseTemperature", .expression (.binary (.value (c ())) .div (v (str!"Temperature")))⟩]
    units := sample.units.take 10 ++ [
      unit (str!"newtons") (.binary (.value (.paren (.binary (.value (v (str!"kilograms"))) .mul (pw (str!"meters_per_second") 2)))) .div
        (v (str!"meters")))]
    constants := [
      ⟨str!"SOLAR_MASS", .binary (.value (c 1988477000000000000000000000000)) .mul (v (str!"kilograms")), none⟩,
      ⟨str!"SOLAR_MASS_GRAMS", .binary (.value (c 1988477000000000000000000000000000)) .mul
        (.paren (.binary (.value (c (1 / 1000))) .mul (v (str!"kilograms")))), none⟩,
      ⟨str!"SOLAR_MASS_AWKWARD", .binary (.binary (.value (c 1988477000000000000000000000000)) .mul (v (str!"kilograms"))) .div
        (.paren (.binary (.value (v (str!"seconds"))) .div (v (str!"seconds")))), none⟩] }

theorem Definition.Related.refl' {C B E : Type} {R : Expr (Atom C) E → Expr (Atom C) E → Prop} (hR : ∀ e, R e e) (d : Definition E B C) :
    Definition.Related R d d := by
  cases d with
  | base b => exact .base b
  | expression e => exact .expression (hR e)

/-- Both systems contain the definitions that were written out. -/
theorem C54.writes {w : UnresolvedDefs Int ℚ}
    (he : w.DimensionBody (str!"Energy") (.binary (.binary (.value (v (str!"Mass"))) .mul (v (str!"Velocity"))) .mul (v (str!"Velocity"))))
    (hj : w.ValueBody (str!"joules") (.binary (.value (v (str!"kilograms"))) .mul (pw (str!"meters_per_second") 2)))
    (hg : w.ValueBody (str!"grams") (.binary (.value (c (1 / 1000))) .mul (v (str!"kilograms")))) : WritesOut w sample C54.written := by
  refine ⟨rfl, rfl, ?_, ?_, ?_⟩
  · refine forall₂_append (a := sample.dimensions.take 9) (c' := sample.dimensions.drop 9)
      (List.forall₂_same.2 fun d _ => ⟨rfl, .refl' (fun e => .refl e) _⟩) ?_
    exact .cons ⟨rfl, .expression (.binary (.value (.name he)) (.same _))⟩ (.cons ⟨rfl, .refl' (fun e => .refl e) _⟩ .nil)
  · refine forall₂_append (a := sample.units.take 10) (c' := sample.units.drop 10)
      (List.forall₂_same.2 fun d _ => ⟨rfl, rfl, rfl, rfl, rfl, .refl' (fun e => .refl e) _⟩) ?_
    exact .cons ⟨rfl, rfl, rfl, rfl, rfl, .expression (.binary (.value (.name hj)) (.same _))⟩ .nil
  · exact .cons ⟨rfl, rfl, .refl _⟩ (.cons ⟨rfl, rfl, .binary (.refl _) (.name hg)⟩ (.cons ⟨rfl, rfl, .refl _⟩ .nil))

theorem C54.writes_sample : WritesOut (UnresolvedTemplates.expand (MagOps.one Int) exactFactor sample) sample C54.written := by
  refine C54.writes ?_ ?_ ?_
  · exact ⟨_, List.mem_of_getElem? (i := 6) rfl, rfl, rfl⟩
  · refine .inl ⟨⟨str!"joules", some (str!"J"), none, _, none⟩, List.mem_flatMap.2 ⟨_, List.mem_of_getElem? (i := 4) rfl, ?_⟩, rfl, rfl⟩
    exact List.mem_of_getElem? (i := 0) rfl
  · refine .inl ⟨⟨str!"grams", none, none, _, none⟩, List.mem_flatMap.2 ⟨_, List.mem_of_getElem? (i := 6) rfl, ?_⟩, rfl, rfl⟩
    exact List.mem_of_getElem? (i := 0) rfl

theorem C54.writes_written : WritesOut (UnresolvedTemplates.expand (MagOps.one Int) exactFactor C54.written) sample C54.written := by
  refine C54.writes ?_ ?_ ?_
  · exact ⟨_, List.mem_of_getElem? (i := 6) rfl, rfl, rfl⟩
  · refine .inl ⟨⟨str!"joules", some (str!"J"), none, _, none⟩, List.mem_flatMap.2 ⟨_, List.mem_of_getElem? (i := 4) rfl, ?_⟩, rfl, rfl⟩
    exact List.mem_of_getElem? (i := 0) rfl
  · refine .inl ⟨⟨str!"grams", none, none, _, none⟩, List.mem_flatMap.2 ⟨_, List.mem_of_getElem? (i := 6) rfl, ?_⟩, rfl, rfl⟩
    exact List.mem_of_getElem? (i := 0) rfl

example : runUnitSystem exactFactor C54.written = some (C52.defs, []) :=
  C54_write_out exactFactor sample C54.written C54.writes_sample C52.defs C52.accepted

example (defs : Defs Int ℚ) (h : runUnitSystem exactFactor C54.written = some (defs, [])) : runUnitSystem exactFactor sample = some (defs, []) :=
  C54_name_parts exactFactor sample C54.written C54.writes_written defs h

/-- `unit meters_per_second = ((meters) / seconds)` -/
def C54.parens : UnresolvedTemplates Int ℚ :=
  { sample with
    units := (sample.units.take 3 ++
      [unit (str!"meters_per_second") (.value (.paren (.binary (.value (.paren (.value (v (str!"meters"))))) .div (v (str!"seconds")))))]) ++
      sample.units.drop 4 }

example : runUnitSystem exactFactor C54.parens = some (C52.defs, []) := by
  refine (C54_parentheses exactFactor sample C54.parens ⟨rfl, rfl, ?_, ?_, ?_⟩ _).1 C52.accepted
  · exact List.forall₂_same.2 fun d _ => ⟨rfl, .refl' (fun e => .refl e) _⟩
  · refine forall₂_append (a := sample.units.take 4) (c' := sample.units.drop 4)
      (forall₂_append (a := sample.units.take 3) (c' := [_])
        (List.forall₂_same.2 fun d _ => ⟨rfl, rfl, rfl, rfl, rfl, .refl' (fun e => .refl e) _⟩) ?_)
      (List.forall₂_same.2 fun d _ => ⟨rfl, rfl, rfl, rfl, rfl, .refl' (fun e => .refl e) _⟩)
    exact .cons ⟨rfl, rfl, rfl, rfl, rfl, .expression (.wrap (.binary (.value (.wrap (.same _))) (.same _)))⟩ .nil
  · exact List.forall₂_same.2 fun d _ => ⟨rfl, rfl, .refl _⟩

end Example
end Diman
