import Verif.Spec.WellFormed
import Verif.Props.C12
import Verif.Props.C13
import Verif.Props.C14
import Verif.Proofs.ExpMap
/-! The statements as written and their expansion; the keys and exponents of resolved definitions. -/
set_option linter.unusedSectionVars false
namespace Diman
open LawfulExponent

section
variable {E M : Type} {one : M} {factor : Prefix → M}

/-! ### Expansion -/

theorem getDefinition_some_pre (v : UnitTemplate E M) (p : Prefix) (al) :
    v.getDefinition one factor (some p) al = .expression (.binary (.value (.value (.concrete (factor p)))) .mul (.value (.other v.name))) := by
  cases al <;> rfl

theorem getDefinition_some_al (v : UnitTemplate E M) (a : Str) :
    v.getDefinition one factor none (some a) = .expression (.binary (.value (.value (.concrete one))) .mul (.value (.other v.name))) := rfl

theorem expand_perm (v : UnitTemplate E M) :
    ((v.expand one factor).map fun e : UnitEntry E M => (e.name, e.mentions)).Perm ((v.name, v.uses) :: v.variants.map fun n => (n, [v.name])) := by
  have h1 : ∀ p : Prefix, ((v.aliases.map some ++ [none]).map fun al => v.expandOne one factor (some p) al).map (fun e : UnitEntry E M => (e.name, e.mentions)) =
      (v.aliases ++ [v.name]).map fun n => (p.name ++ n, [v.name]) := by
    intro p
    simp only [List.map_append, List.map_map, List.map_cons, List.map_nil]
    rfl
  have h2 : ((v.aliases.map some ++ [none]).map fun al => v.expandOne one factor none al).map (fun e : UnitEntry E M => (e.name, e.mentions)) =
      v.aliases.map (fun n => (n, [v.name])) ++ [(v.name, v.uses)] := by
    simp only [List.map_append, List.map_map, List.map_cons, List.map_nil]
    rfl
  unfold UnitTemplate.expand
  rw [List.flatMap_append, List.map_append, List.map_flatMap, List.flatMap_map]
  simp only [List.flatMap_cons, List.flatMap_nil, List.append_nil, h1, h2]
  unfold UnitTemplate.variants
  rw [List.map_append, List.map_flatMap]
  refine List.perm_append_comm.trans ?_
  refine (List.perm_append_comm.append_right _).trans ?_
  simp only [List.cons_append, List.nil_append]
  refine List.Perm.cons _ (List.Perm.append_left _ ?_)
  refine List.Perm.flatMap_left _ fun p _ => ?_
  rw [List.map_map]
  simp only [List.map_append, List.map_cons, List.map_nil]
  exact List.perm_append_comm (l₂ := [_])

theorem written_perm (t : UnresolvedTemplates E M) : (UnresolvedTemplates.expand one factor t).definitions.Perm t.written := by
  unfold Unresolved.definitions Unresolved.written UnresolvedTemplates.expand
  refine List.Perm.append_right _ (List.Perm.append_left _ ?_)
  rw [List.map_flatMap]
  exact List.Perm.flatMap_left _ fun v _ => expand_perm v

theorem mentions_written (t : UnresolvedTemplates E M) : Mentions (UnresolvedTemplates.expand one factor t).definitions = Mentions t.written := by
  funext x y
  unfold Mentions
  simp only [(written_perm t).mem_iff]

theorem dependsOn_written (t : UnresolvedTemplates E M) : DependsOn (UnresolvedTemplates.expand one factor t).definitions = DependsOn t.written := by
  funext x y
  unfold DependsOn
  rw [mentions_written]

theorem mem_expand_name {v : UnitTemplate E M} {x : Str} :
    (∃ e ∈ v.expand one factor, e.name = x) ↔ x = v.name ∨ x ∈ v.variants := by
  have := ((expand_perm (one := one) (factor := factor) v).map Prod.fst).mem_iff (a := x)
  simp only [List.map_map, List.map_cons, List.mem_cons, List.mem_map, Function.comp_apply] at this
  rw [this]
  constructor
  · rintro (h | ⟨n, hn, rfl⟩)
    · exact .inl h
    · exact .inr hn
  · rintro (h | h)
    · exact .inl h
    · exact .inr ⟨_, h, rfl⟩

theorem claims_iff (t : UnresolvedTemplates E M) (x a : Str) : (UnresolvedTemplates.expand one factor t).Annotated x a ↔ t.Claims x a := by
  unfold Unresolved.Annotated Unresolved.Claims
  simp only [UnresolvedTemplates.expand, List.mem_flatMap]
  refine or_congr ?_ ?_
  · constructor
    · rintro ⟨e, ⟨v, hv, he⟩, hn, ha⟩
      refine ⟨v, hv, (mem_expand_name (one := one) (factor := factor)).1 ⟨e, he, hn⟩, ?_⟩
      obtain ⟨pre, al, _, _, rfl⟩ := UnitTemplate.mem_expand.1 he
      exact ha
    · rintro ⟨v, hv, hx, ha⟩
      obtain ⟨e, he, hn⟩ := (mem_expand_name (one := one) (factor := factor)).2 hx
      refine ⟨e, ⟨v, hv, he⟩, hn, ?_⟩
      obtain ⟨pre, al, _, _, rfl⟩ := UnitTemplate.mem_expand.1 he
      exact ha
  · constructor
    · rintro ⟨c, hc, rfl, ha⟩; exact ⟨c, hc, rfl, ha⟩
    · rintro ⟨c, hc, rfl, ha⟩; exact ⟨c, hc, rfl, ha⟩

theorem symbols_perm (t : UnresolvedTemplates E M) :
    ((UnresolvedTemplates.expand one factor t).units.filterMap UnitEntry.symbol).Perm (t.units.flatMap UnitTemplate.allSymbols) := by
  simp only [UnresolvedTemplates.expand]
  rw [List.filterMap_flatMap]
  refine List.Perm.flatMap_left _ fun v _ => ?_
  have hal : ∀ pre, (v.aliases.map fun al => v.expandOne one factor pre (some al)).filterMap UnitEntry.symbol = [] := by
    intro pre
    rw [List.filterMap_eq_nil_iff]
    intro e he
    obtain ⟨al, _, rfl⟩ := List.mem_map.1 he
    rfl
  unfold UnitTemplate.expand UnitTemplate.allSymbols
  rw [List.filterMap_flatMap, List.flatMap_append, List.flatMap_map]
  simp only [List.map_append, List.map_map, List.map_cons, List.map_nil, List.filterMap_append, List.flatMap_cons, List.flatMap_nil, List.append_nil]
  have hal' : ∀ pre, ((v.aliases.map (((fun al => v.expandOne one factor pre al) : Option Str → _) ∘ some))).filterMap UnitEntry.symbol = [] := hal
  simp only [hal', List.nil_append]
  cases hs : v.symbol with
  | none =>
    have : ∀ pre, [v.expandOne one factor pre none].filterMap UnitEntry.symbol = [] := by
      intro pre; cases pre <;> simp [UnitTemplate.expandOne, UnitTemplate.formatSymbol, hs]
    simp [this]
  | some s =>
    have h1 : ∀ p, [v.expandOne one factor (some p) none].filterMap UnitEntry.symbol = [p.short ++ s] := by
      intro p; simp [UnitTemplate.expandOne, UnitTemplate.formatSymbol, hs]
    have h2 : [v.expandOne one factor none none].filterMap UnitEntry.symbol = [s] := by
      simp [UnitTemplate.expandOne, UnitTemplate.formatSymbol, hs]
    simp only [h1, h2]
    refine List.perm_append_comm.trans ?_
    refine List.Perm.cons _ ?_
    rw [List.map_eq_flatMap]; rfl

/-- What a variant is: a factor times the unit. -/
def variantDef (E : Type) {M : Type} (f : M) (n : Str) : Definition E Str M :=
  .expression (.binary (.value (.value (.concrete f))) .mul (.value (.other n)))

theorem expand_cases {v : UnitTemplate E M} {e : UnitEntry E M} (h : e ∈ v.expand one factor) :
    (e.name = v.name ∧ e.definition = v.definition ∧ e.symbol = v.symbol) ∨ (e.name ∈ v.variants ∧ ∃ f, e.definition = variantDef E f v.name) := by
  obtain ⟨pre, al, h1, h2, rfl⟩ := UnitTemplate.mem_expand.1 h
  cases pre with
  | none =>
    cases al with
    | none => exact .inl ⟨rfl, rfl, rfl⟩
    | some a =>
      refine .inr ⟨?_, _, rfl⟩
      rcases h2 with h2 | ⟨b, hb, h2⟩
      · simp at h2
      · injection h2 with h2; subst h2
        exact List.mem_append_left _ hb
  | some p =>
    refine .inr ⟨?_, _, getDefinition_some_pre (one := one) v p al⟩
    rcases h1 with h1 | ⟨q, hq, h1⟩
    · simp at h1
    · injection h1 with h1; subst h1
      refine List.mem_append_right _ (List.mem_flatMap.2 ⟨p, hq, ?_⟩)
      cases al with
      | none => exact List.mem_map.2 ⟨v.name, List.mem_cons_self .., rfl⟩
      | some a =>
        rcases h2 with h2 | ⟨b, hb, h2⟩
        · simp at h2
        · injection h2 with h2; subst h2
          exact List.mem_map.2 ⟨_, List.mem_cons_of_mem _ hb, rfl⟩

theorem expand_variant {v : UnitTemplate E M} {n : Str} (h : n ∈ v.variants) :
    ∃ e ∈ v.expand one factor, e.name = n ∧ ∃ f, e.definition = variantDef E f v.name := by
  unfold UnitTemplate.variants at h
  rcases List.mem_append.1 h with h | h
  · exact ⟨_, UnitTemplate.mem_expand.2 ⟨none, some n, .inl rfl, .inr ⟨n, h, rfl⟩, rfl⟩, rfl, _, rfl⟩
  · obtain ⟨p, hp, h⟩ := List.mem_flatMap.1 h
    obtain ⟨m, hm, rfl⟩ := List.mem_map.1 h
    rcases List.mem_cons.1 hm with rfl | hm
    · exact ⟨_, UnitTemplate.mem_expand.2 ⟨some p, none, .inr ⟨p, hp, rfl⟩, .inl rfl, rfl⟩, rfl, _, rfl⟩
    · exact ⟨_, UnitTemplate.mem_expand.2 ⟨some p, some m, .inr ⟨p, hp, rfl⟩, .inr ⟨m, hm, rfl⟩, rfl⟩, rfl, _, rfl⟩

theorem expand_main (v : UnitTemplate E M) :
    ∃ e ∈ v.expand one factor, e.name = v.name ∧ e.definition = v.definition ∧ e.symbol = v.symbol :=
  ⟨_, UnitTemplate.mem_expand.2 ⟨none, none, .inl rfl, .inl rfl, rfl⟩, rfl, rfl, rfl⟩

/-! ### Keys -/
variable [Exponent E] [MagOps E M]

theorem Dims.addEntry_mem_key {d d' : Dims E} {k : Str} {v : E} (h : d.addEntry k v = some d') (k' : Str) :
    k' ∈ d'.map Prod.fst ↔ k' ∈ d.map Prod.fst ∨ k' = k := by
  have hs := (Dims.addEntry_spec h).2
  cases hg : Dims.get d k with
  | none =>
    rw [hg] at hs
    rw [hs.2]; simp
  | some w =>
    rw [hg] at hs
    obtain ⟨x, _, _, h3⟩ := hs
    rw [h3]
    constructor
    · exact .inl
    · rintro (h | rfl)
      · exact h
      · exact List.mem_map_of_mem (f := Prod.fst) (Dims.get_mem hg)

theorem Dims.mul_mem_key {a b c : Dims E} (h : a.mul b = some c) (k : Str) : k ∈ c.map Prod.fst ↔ k ∈ a.map Prod.fst ∨ k ∈ b.map Prod.fst := by
  induction b generalizing a with
  | nil => simp only [Dims.mul, Option.some.injEq] at h; subst h; simp
  | cons kv b ih =>
    obtain ⟨k', v⟩ := kv
    simp only [Dims.mul, bindM_eq_some] at h
    obtain ⟨a', h1, h2⟩ := h
    rw [ih h2, Dims.addEntry_mem_key h1]
    simp only [List.map_cons, List.mem_cons]
    tauto

theorem Dims.div_mem_key {a b c : Dims E} (h : a.div b = some c) (k : Str) : k ∈ c.map Prod.fst ↔ k ∈ a.map Prod.fst ∨ k ∈ b.map Prod.fst := by
  unfold Dims.div at h
  simp only [bindM_eq_some] at h
  obtain ⟨b', h1, h2⟩ := h
  rw [Dims.mul_mem_key h2, Dims.inv_keys h1]

mutual
theorem Expr.eval_mem_key (e : Expr (DM E M) E) {r : DM E M} (h : e.eval = some r) (k : Str) :
    k ∈ r.dims.map Prod.fst ↔ ∃ d ∈ e.vals, k ∈ d.dims.map Prod.fst := by
  match e with
  | .value f => exact Factor.eval_mem_key f h k
  | .binary l o f =>
    simp only [Expr.eval, bindM_eq_some] at h
    obtain ⟨a, ha, b, hb, h⟩ := h
    have i1 := Expr.eval_mem_key l ha k
    have i2 := Factor.eval_mem_key f hb k
    have : k ∈ r.dims.map Prod.fst ↔ k ∈ a.dims.map Prod.fst ∨ k ∈ b.dims.map Prod.fst := by
      cases o with
      | mul => exact Dims.mul_mem_key (dm_mul_some h).1 k
      | div => exact Dims.div_mem_key (dm_div_some h).1 k
    rw [this, i1, i2]
    simp only [Expr.vals, List.mem_append, or_and_right, exists_or]
theorem Factor.eval_mem_key (f : Factor (DM E M) E) {r : DM E M} (h : f.eval = some r) (k : Str) :
    k ∈ r.dims.map Prod.fst ↔ ∃ d ∈ f.vals, k ∈ d.dims.map Prod.fst := by
  match f with
  | .value v =>
    simp only [Factor.eval, Option.some.injEq] at h; subst h
    simp [Factor.vals]
  | .power v p =>
    simp only [Factor.eval] at h
    rw [Dims.pow_keys (dm_pow_some h).1]
    simp [Factor.vals]
  | .paren e =>
    simp only [Factor.eval] at h
    exact Expr.eval_mem_key e h k
end

/-- The keys of a resolved item: those of its literals and those of what it mentions. -/
theorem Solution.keys {l : List (Item E M)} {res : BMap (ResolvedItem E M)} (hS : Solution l res) {i : Item E M} (hi : i ∈ l)
    {r : ResolvedItem E M} (hr : res.get i.ident = some r) (k : Str) :
    k ∈ r.dimensions.dims.map Prod.fst ↔ (∃ c, Atom.concrete c ∈ i.expr.vals ∧ k ∈ c.dims.map Prod.fst) ∨
      ∃ y ∈ i.refs, ∃ r', res.get y = some r' ∧ k ∈ r'.dimensions.dims.map Prod.fst := by
  obtain ⟨d, g, e⟩ := hS.eqn i hi
  rw [hr] at g; injection g with g; subst g
  rw [Expr.eval_mem_key _ (resolveDimensions_eval e)]
  simp only [Expr.vals_map, List.mem_map]
  constructor
  · rintro ⟨_, ⟨a, ha, rfl⟩, hk⟩
    cases a with
    | concrete c => exact .inl ⟨c, ha, by simpa [leafD] using hk⟩
    | other y =>
      refine .inr ⟨y, mem_refs.2 ha, ?_⟩
      simp only [leafD] at hk
      cases hg : res.get y with
      | none => rw [hg] at hk; simp at hk
      | some r' => rw [hg] at hk; exact ⟨r', rfl, by simpa using hk⟩
  · rintro (⟨c, hc, hk⟩ | ⟨y, hy, r', hr', hk⟩)
    · exact ⟨_, ⟨_, hc, rfl⟩, by simpa [leafD] using hk⟩
    · refine ⟨_, ⟨_, mem_refs.1 hy, rfl⟩, ?_⟩
      simp only [leafD, hr']; simpa using hk

/-- Which keys an item brings in by itself: a base dimension its own. -/
theorem item_literal_keys {u : UnresolvedDefs E M} {i : Item E M} (hi : i ∈ allItems u) (k : Str) :
    (∃ c, Atom.concrete c ∈ i.expr.vals ∧ k ∈ c.dims.map Prod.fst) ↔
      ∃ b ∈ u.dimensions, b.rhs = .base () ∧ toSnakecase b.name = k ∧ i = Item.ofDimension b := by
  have none : ∀ {C : Type} (e : Expr (Atom C) E) (f : C → DM E M), (∀ c, (f c).dims = []) →
      ¬ ∃ c, Atom.concrete c ∈ (e.map (Atom.mapConcrete f)).vals ∧ k ∈ c.dims.map Prod.fst := by
    rintro C e f hf ⟨c, hc, hk⟩
    simp only [Expr.vals_map, List.mem_map] at hc
    obtain ⟨a, _, ha⟩ := hc
    cases a with
    | concrete x => simp only [Atom.mapConcrete, Atom.concrete.injEq] at ha; subst ha; rw [hf] at hk; simp at hk
    | other _ => simp [Atom.mapConcrete] at ha
  rcases mem_allItems.1 hi with ⟨d, hd, rfl⟩ | ⟨x, hx, rfl⟩ | ⟨c, hc, rfl⟩
  · cases hr : d.rhs with
    | base b =>
      have he : (Item.ofDimension (M := M) d).expr = .value (.value (.concrete (DM.dimensions [(toSnakecase d.name, Exponent.one)]))) := by
        simp [Item.ofDimension, hr]
      rw [he]
      simp only [Expr.vals, Factor.vals, List.mem_singleton, Atom.concrete.injEq, exists_eq_left, DM.dimensions, List.map_cons, List.map_nil]
      constructor
      · rintro rfl; exact ⟨d, hd, hr, rfl, rfl⟩
      · rintro ⟨b', hb', _, h2, h3⟩
        have : d.name = b'.name := congrArg Item.ident h3
        rw [this, h2]
    | expression e =>
      have he : (Item.ofDimension (M := M) d).expr = e.map (Atom.mapConcrete fun _ => DM.dimensions []) := by simp [Item.ofDimension, hr]
      rw [he]
      refine iff_of_false (none e _ fun _ => rfl) ?_
      rintro ⟨b', _, h1, _, h3⟩
      have : ItemType.dimension (M := M) d = .dimension b' := congrArg Item.type h3
      injection this with this; subst this
      rw [hr] at h1; simp at h1
  · have hne : ¬ ∃ b ∈ u.dimensions, b.rhs = .base () ∧ toSnakecase b.name = k ∧ Item.ofUnit x = Item.ofDimension b := by
      rintro ⟨b', _, _, _, h3⟩
      have : ItemType.unit x = .dimension b' := congrArg Item.type h3
      simp at this
    refine iff_of_false ?_ hne
    cases hr : x.definition with
    | base b =>
      have he : (Item.ofUnit x).expr = .value (.value (.other b)) := by simp [Item.ofUnit, hr]
      rw [he]; simp [Expr.vals, Factor.vals]
    | expression e =>
      have he : (Item.ofUnit x).expr = e.map (Atom.mapConcrete DM.magnitude) := by simp [Item.ofUnit, hr]
      rw [he]; exact none e _ fun _ => rfl
  · refine iff_of_false (none c.rhs _ fun _ => rfl) ?_
    rintro ⟨b', _, _, _, h3⟩
    have : ItemType.constant c = .dimension b' := congrArg Item.type h3
    simp at this

theorem grounded_resolved {l : List (Item E M)} {res : BMap (ResolvedItem E M)} (hS : Solution l res) {x : Str}
    (h : Grounded (itemDefs l) x) : ∃ i ∈ l, i.ident = x ∧ ∃ d, res.get x = some ⟨i, d⟩ := by
  obtain ⟨_, rs, hx, _⟩ := h
  obtain ⟨i, hi, rfl, rfl⟩ := mem_itemDefs.1 hx
  obtain ⟨d, g, _⟩ := hS.eqn i hi
  exact ⟨i, hi, rfl, d, g⟩

/-- **The keys of a resolved name** are the base dimensions its definition leads to. -/
theorem Solution.keys_iff {u : UnresolvedDefs E M} {res : BMap (ResolvedItem E M)} (hS : Solution (allItems u) res) (hn : u.names.Nodup)
    {x : Str} (hx : Grounded (itemDefs (allItems u)) x) : ∀ r, res.get x = some r → ∀ k, k ∈ r.dimensions.dims.map Prod.fst ↔
      ∃ b ∈ u.dimensions, b.rhs = .base () ∧ toSnakecase b.name = k ∧ (x = b.name ∨ DependsOn u.definitions x b.name) := by
  have hn' : ((allItems u).map Item.ident).Nodup := by rwa [allItems_ident]
  induction hx with
  | intro x rs hx hg ih =>
    intro r hr k
    obtain ⟨i, hi, rfl, rfl⟩ := mem_itemDefs.1 hx
    rw [hS.keys hi hr, item_literal_keys hi]
    have ment : ∀ y, y ∈ i.refs → Mentions u.definitions i.ident y := fun y hy => ⟨i.refs, by rw [← itemDefs_allItems]; exact hx, hy⟩
    constructor
    · rintro (⟨b, hb, h1, h2, h3⟩ | ⟨y, hy, r', hr', hk⟩)
      · exact ⟨b, hb, h1, h2, .inl (by rw [h3]; rfl)⟩
      · obtain ⟨b, hb, h1, h2, h3⟩ := (ih y hy r' hr' k).1 hk
        refine ⟨b, hb, h1, h2, .inr ?_⟩
        rcases h3 with rfl | h3
        · exact .single (ment _ hy)
        · exact .head (ment _ hy) h3
    · rintro ⟨b, hb, h1, h2, h3⟩
      rcases h3 with h3 | h3
      · refine .inl ⟨b, hb, h1, h2, item_unique hn' hi (mem_allItems.2 (.inl ⟨b, hb, rfl⟩)) h3⟩
      · obtain ⟨y, hy, hyb⟩ : ∃ y, Mentions u.definitions i.ident y ∧ (y = b.name ∨ DependsOn u.definitions y b.name) := by
          rcases Relation.TransGen.head'_iff.1 h3 with ⟨y, hy, hyb⟩
          rcases Relation.reflTransGen_iff_eq_or_transGen.1 hyb with h | h
          · exact ⟨y, hy, .inl h.symm⟩
          · exact ⟨y, hy, .inr h⟩
        obtain ⟨rs, hrs, hy⟩ := hy
        rw [← itemDefs_allItems] at hrs
        obtain ⟨j, hj, hji, rfl⟩ := mem_itemDefs.1 hrs
        have := item_unique hn' hj hi hji
        subst this
        obtain ⟨_, _, _, d, gy⟩ := grounded_resolved hS (hg y hy)
        exact .inr ⟨y, hy, _, gy, (ih y hy _ gy k).2 ⟨b, hb, h1, h2, hyb⟩⟩

/-! ### Exponents -/
variable [LawfulExponent E]

/-- The exponents of an atom of an item. -/
def leafExpo (ρ : Str → Str → ℚ) : Atom (DM E M) → Str → ℚ
  | .concrete c, k => c.dims.expo k
  | .other x, k => ρ x k

/-- Every item holds as an equation. -/
def ItemsBalanced (l : List (Item E M)) (ρ : Str → Str → ℚ) : Prop := ∀ i ∈ l, ∀ k, ρ i.ident k = i.expr.specExpo (leafExpo ρ) k

theorem itemsBalanced_unique {l : List (Item E M)} {ρ ρ' : Str → Str → ℚ} (h : ItemsBalanced l ρ)
    (h' : ItemsBalanced l ρ') {x : Str} (hx : Grounded (itemDefs l) x) (k : Str) : ρ x k = ρ' x k := by
  induction hx with
  | intro x rs hx _ ih =>
    obtain ⟨i, hi, rfl, rfl⟩ := mem_itemDefs.1 hx
    rw [h i hi, h' i hi]
    have := Expr.specExpo_congr id (leafExpo ρ) (leafExpo ρ') k i.expr fun a ha => by
      cases a with
      | concrete c => rfl
      | other y => exact ih y (mem_refs.2 ha)
    rwa [Expr.map_id] at this

/-- The exponents found by the resolver. -/
def resolvedExpo (res : BMap (ResolvedItem E M)) (x k : Str) : ℚ :=
  match res.get x with
  | some r => r.dimensions.dims.expo k
  | none => 0

theorem resolved_balanced {l : List (Item E M)} {res : BMap (ResolvedItem E M)} (hS : Solution l res) (hgood : ∀ i ∈ l, i.Good)
    (hg : ∀ i ∈ l, Grounded (itemDefs l) i.ident) : ItemsBalanced l (resolvedExpo res) := by
  intro i hi k
  obtain ⟨d, g, e⟩ := hS.eqn i hi
  simp only [resolvedExpo, g]
  have := (Expr.eval_expo _ ?_ ((Expr.allExp_map _ _ _).2 (hgood i hi).2) (resolveDimensions_eval e)).2 k
  · rw [this]
    refine Expr.specExpo_congr _ _ _ _ _ fun a _ => ?_
    cases a with
    | concrete c => rfl
    | other y =>
      simp only [leafD, leafExpo, resolvedExpo]
      cases res.get y <;> rfl
  · intro d hd
    simp only [Expr.vals_map, List.mem_map] at hd
    obtain ⟨a, ha, rfl⟩ := hd
    cases a with
    | concrete c => exact (hgood i hi).1 c ha
    | other y =>
      simp only [leafD]
      cases hy : res.get y with
      | none => exact Dims.wf_nil
      | some r =>
        obtain ⟨h1, h2⟩ := hS.only _ _ hy
        exact solution_wf hS hgood (by rw [← h2]; exact hg _ h1) r hy

/-- Every literal of an item is in normal form. -/
def Item.Canonical (i : Item E M) : Prop :=
  (∀ c, Atom.concrete c ∈ i.expr.vals → c.dims.Canonical) ∧ i.expr.AllExp (Canon : E → Prop)

theorem solution_canonical {l : List (Item E M)} {res : BMap (ResolvedItem E M)} (hS : Solution l res) (hc : ∀ i ∈ l, i.Canonical)
    {x : Str} (hx : Grounded (itemDefs l) x) : ∀ r, res.get x = some r → r.dimensions.dims.Canonical := by
  induction hx with
  | intro x rs hx _ ih =>
    intro r hr
    obtain ⟨i, hi, rfl, rfl⟩ := mem_itemDefs.1 hx
    obtain ⟨dm, g, e⟩ := hS.eqn i hi
    rw [hr] at g; injection g with g; subst g
    refine Expr.eval_canonical _ ?_ ((Expr.allExp_map _ _ _).2 (hc i hi).2) (resolveDimensions_eval e)
    intro d hd
    simp only [Expr.vals_map, List.mem_map] at hd
    obtain ⟨a, ha, rfl⟩ := hd
    cases a with
    | concrete c => exact (hc i hi).1 c ha
    | other y =>
      simp only [leafD]
      cases hg : res.get y with
      | none => exact Dims.canonical_nil
      | some r => exact ih y (mem_refs.2 ha) r hg

theorem mapConcrete_canonical {C : Type} {e : Expr (Atom C) E} {f : C → DM E M} (hf : ∀ c, (f c).dims = []) :
    ∀ c, Atom.concrete c ∈ (e.map (Atom.mapConcrete f)).vals → c.dims.Canonical := by
  intro c hc
  simp only [Expr.vals_map, List.mem_map] at hc
  obtain ⟨a, _, ha⟩ := hc
  cases a with
  | concrete x => simp only [Atom.mapConcrete, Atom.concrete.injEq] at ha; subst ha; rw [hf]; exact Dims.canonical_nil
  | other _ => simp [Atom.mapConcrete] at ha

theorem allItems_canonical {t : UnresolvedTemplates E M} (hc : t.CanonicalExponents) :
    ∀ i ∈ allItems (UnresolvedTemplates.expand one factor t), i.Canonical := by
  intro i hi
  rcases mem_allItems.1 hi with ⟨d, hd, rfl⟩ | ⟨x, hx, rfl⟩ | ⟨c, hc', rfl⟩
  · have := hc.1 d hd
    unfold Item.ofDimension Item.Canonical
    cases hr : d.rhs with
    | base b =>
      refine ⟨?_, by simp [Expr.AllExp, Factor.AllExp]⟩
      intro c hc
      simp [Expr.vals, Factor.vals] at hc
      subst hc
      intro kv hkv
      simp [DM.dimensions] at hkv; subst hkv; exact one_canon
    | expression e =>
      rw [hr] at this
      exact ⟨mapConcrete_canonical fun _ => rfl, (Expr.allExp_map _ _ e).2 this⟩
  · obtain ⟨v, hv, hx⟩ := List.mem_flatMap.1 (show x ∈ t.units.flatMap (fun v => v.expand one factor) from hx)
    have : x.definition.AllExp (Canon : E → Prop) := by
      rcases expand_cases hx with ⟨_, h, _⟩ | ⟨_, f, h⟩
      · rw [h]; exact hc.2.1 v hv
      · rw [h]; simp [variantDef, Definition.AllExp, Expr.AllExp, Factor.AllExp]
    unfold Item.ofUnit Item.Canonical
    cases hr : x.definition with
    | base b =>
      refine ⟨?_, by simp [Expr.AllExp, Factor.AllExp]⟩
      intro c hc
      simp [Expr.vals, Factor.vals] at hc
    | expression e =>
      rw [hr] at this
      exact ⟨mapConcrete_canonical fun _ => rfl, (Expr.allExp_map _ _ e).2 this⟩
  · exact ⟨mapConcrete_canonical fun _ => rfl, (Expr.allExp_map _ _ _).2 (hc.2.2 c hc')⟩

mutual
theorem Expr.AllExp.imp {T : Type} {P Q : E → Prop} (h : ∀ e, P e → Q e) : ∀ (e : Expr T E), e.AllExp P → e.AllExp Q
  | .value f, hf => Factor.AllExp.imp h f hf
  | .binary l _ f, hf => ⟨Expr.AllExp.imp h l hf.1, Factor.AllExp.imp h f hf.2⟩
theorem Factor.AllExp.imp {T : Type} {P Q : E → Prop} (h : ∀ e, P e → Q e) : ∀ (f : Factor T E), f.AllExp P → f.AllExp Q
  | .value _, _ => trivial
  | .power _ p, hp => h p hp
  | .paren e, he => Expr.AllExp.imp h e he
end

theorem item_good_of_canonical {l : List (Item E M)} (hc : ∀ i ∈ l, i.Canonical) (hw : ∀ i ∈ l, ∀ c, Atom.concrete c ∈ i.expr.vals → c.dims.WF) :
    ∀ i ∈ l, i.Good := fun i hi => ⟨hw i hi, Expr.AllExp.imp (fun _ h => canon_good h) _ (hc i hi).2⟩

theorem goodExponents_of_canonical {t : UnresolvedTemplates E M} (hc : t.CanonicalExponents) :
    (UnresolvedTemplates.expand one factor t).GoodExponents := by
  have hd : ∀ {B C : Type} (d : Definition E B C), d.AllExp (Canon : E → Prop) → d.AllExp (LawfulExponent.Good : E → Prop) := by
    intro B C d h
    cases d with
    | base _ => trivial
    | expression e => exact Expr.AllExp.imp (fun _ h => canon_good h) _ h
  refine ⟨fun d h => hd _ (hc.1 d h), fun x hx => ?_, fun c h => Expr.AllExp.imp (fun _ h => canon_good h) _ (hc.2.2 c h)⟩
  obtain ⟨v, hv, hx⟩ := List.mem_flatMap.1 (show x ∈ t.units.flatMap (fun v => v.expand one factor) from hx)
  rcases expand_cases hx with ⟨_, h, _⟩ | ⟨_, f, h⟩
  · rw [h]; exact hd _ (hc.2.1 v hv)
  · rw [h]; simp [variantDef, Definition.AllExp, Expr.AllExp, Factor.AllExp]

theorem specExpo_mapConcrete {C : Type} (e : Expr (Atom C) E) (f : C → DM E M) (hf : ∀ c, (f c).dims = []) (ρ : Str → Str → ℚ) (k : Str) :
    (e.map (Atom.mapConcrete f)).specExpo (leafExpo ρ) k = e.specExpo (Atom.expo ρ) k := by
  refine Expr.specExpo_congr _ _ _ _ _ fun a _ => ?_
  cases a with
  | concrete c => simp only [Atom.mapConcrete, leafExpo, Atom.expo, hf]; rfl
  | other y => rfl

/-- The statements as written are balanced just when the items are. -/
theorem balanced_iff {t : UnresolvedTemplates E M} {ρ : Str → Str → ℚ} :
    t.Balanced ρ ↔ ItemsBalanced (allItems (UnresolvedTemplates.expand one factor t)) ρ := by
  have unitEq : ∀ (x : UnitEntry E M) (k : Str), (Item.ofUnit x).expr.specExpo (leafExpo ρ) k = match x.definition with
      | .base d => ρ d k
      | .expression e => e.specExpo (Atom.expo ρ) k := by
    intro x k
    cases hr : x.definition with
    | base d => simp only [Item.ofUnit, hr]; rfl
    | expression e => simp only [Item.ofUnit, hr]; exact specExpo_mapConcrete e _ (fun _ => rfl) ρ k
  have dimEq : ∀ (d : DimensionEntry E) (k : Str), (Item.ofDimension (M := M) d).expr.specExpo (leafExpo ρ) k = match d.rhs with
      | .base _ => if k = toSnakecase d.name then 1 else 0
      | .expression e => e.specExpo (Atom.expo ρ) k := by
    intro d k
    cases hr : d.rhs with
    | base _ =>
      simp only [Item.ofDimension, hr, Expr.specExpo, Factor.specExpo, leafExpo, DM.dimensions, Dims.expo, Dims.get]
      by_cases hk : toSnakecase d.name = k
      · simp [hk, one_val]
      · simp [hk, Ne.symm hk]
    | expression e => simp only [Item.ofDimension, hr]; exact specExpo_mapConcrete e _ (fun _ => rfl) ρ k
  have variantEq : ∀ (f : M) (n : Str) (k : Str),
      (match variantDef E f n with | .base d => ρ d k | .expression e => e.specExpo (Atom.expo ρ) k) = ρ n k := by
    intro f n k
    simp [variantDef, Expr.specExpo, Factor.specExpo, Atom.expo]
  constructor
  · intro h i hi k
    rcases mem_allItems.1 hi with ⟨d, hd, rfl⟩ | ⟨x, hx, rfl⟩ | ⟨c, hc, rfl⟩
    · rw [dimEq]
      cases hr : d.rhs with
      | base _ => exact h.baseDimension d hd hr k
      | expression e => exact h.dimension d hd e hr k
    · rw [unitEq]
      obtain ⟨v, hv, hx⟩ := List.mem_flatMap.1 (show x ∈ t.units.flatMap (fun v => v.expand one factor) from hx)
      rcases expand_cases hx with ⟨h1, h2, _⟩ | ⟨h1, f, h2⟩
      · rw [h2]
        change ρ x.name k = _
        rw [h1]
        cases hr : v.definition with
        | base d => exact h.baseUnit v hv d hr k
        | expression e => exact h.unit v hv e hr k
      · rw [h2, variantEq]
        exact h.variant v hv _ h1 k
    · exact (h.constant c hc k).trans (specExpo_mapConcrete c.rhs _ (fun _ => rfl) ρ k).symm
  · intro h
    have hdim : ∀ d ∈ t.dimensions, ∀ k, ρ d.name k = match d.rhs with
        | .base _ => if k = toSnakecase d.name then 1 else 0
        | .expression e => e.specExpo (Atom.expo ρ) k := fun d hd k => by
      rw [← dimEq]; exact h _ (mem_allItems.2 (.inl ⟨d, hd, rfl⟩)) k
    have hunit : ∀ v ∈ t.units, ∀ x ∈ v.expand one factor, ∀ k, ρ x.name k = match x.definition with
        | .base d => ρ d k
        | .expression e => e.specExpo (Atom.expo ρ) k := fun v hv x hx k => by
      rw [← unitEq]
      exact h _ (mem_allItems.2 (.inr (.inl ⟨x, List.mem_flatMap.2 ⟨v, hv, hx⟩, rfl⟩))) k
    refine ⟨fun d hd hr k => ?_, fun d hd e hr k => ?_, fun v hv d hr k => ?_, fun v hv e hr k => ?_, fun v hv n hn k => ?_, fun c hc k => ?_⟩
    · rw [hdim d hd k, hr]
    · rw [hdim d hd k, hr]
    · obtain ⟨x, hx, h1, h2, _⟩ := expand_main (one := one) (factor := factor) v
      have := hunit v hv x hx k
      rwa [h2, h1, hr] at this
    · obtain ⟨x, hx, h1, h2, _⟩ := expand_main (one := one) (factor := factor) v
      have := hunit v hv x hx k
      rwa [h2, h1, hr] at this
    · obtain ⟨x, hx, h1, f, h2⟩ := expand_variant (one := one) (factor := factor) hn
      have := hunit v hv x hx k
      rwa [h2, h1, variantEq] at this
    · exact (h _ (mem_allItems.2 (.inr (.inr ⟨c, hc, rfl⟩))) k).trans (specExpo_mapConcrete c.rhs _ (fun _ => rfl) ρ k)

end
end Diman
