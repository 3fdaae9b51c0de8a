import Verif.Proofs.Expand
/-!
A fast way to run the resolver in the kernel: the definitions are visited once, in an order in which each mentions only earlier ones,
with the results in a search tree over numeric codes of the names. `fastCheck_sound`: if this succeeds, the code's own algorithm
succeeds without any error, with the same values.
-/
set_option linter.unusedSectionVars false
namespace Diman

/-! ### Codes of names -/

/-- An injective code of strings. -/
def strCode : Str → Nat
  | [] => 0
  | c :: cs => strCode cs * 2097152 + (c.toNat + 1)

theorem strCode_inj {a b : Str} (h : strCode a = strCode b) : a = b := by
  have hlt : ∀ c : Char, c.toNat + 1 < 2097152 := by
    intro c
    have := c.valid
    rcases this with h | h
    · have : c.toNat < 55296 := h
      omega
    · have : c.toNat < 1114112 := h.2
      omega
  induction a generalizing b with
  | nil =>
    cases b with
    | nil => rfl
    | cons c b => simp only [strCode] at h; omega
  | cons c a ih =>
    cases b with
    | nil => simp only [strCode] at h; omega
    | cons d b =>
      simp only [strCode] at h
      have h1 := hlt c
      have h2 := hlt d
      have hc : c.toNat = d.toNat := by omega
      have hs : strCode a = strCode b := by omega
      rw [Char.eq_of_toNat hc, ih hs]

/-! ### Search trees -/

inductive KTree (V : Type) where
  | leaf
  | node (l : KTree V) (k : Nat) (v : V) (r : KTree V)

namespace KTree
variable {V : Type}
def get : KTree V → Nat → Option V
  | leaf, _ => none
  | node l k v r, x => if x = k then some v else if x < k then l.get x else r.get x
def insert : KTree V → Nat → V → KTree V
  | leaf, x, w => node leaf x w leaf
  | node l k v r, x, w => if x = k then node l k w r else if x < k then node (l.insert x w) k v r else node l k v (r.insert x w)

theorem get_insert (t : KTree V) (x y : Nat) (w : V) : (t.insert x w).get y = if y = x then some w else t.get y := by
  induction t with
  | leaf => simp only [insert, get]; split <;> simp
  | node l k v r ihl ihr =>
    simp only [insert]
    split
    · subst_vars; simp only [get]; split <;> rfl
    · split
      · simp only [get, ihl]
        split
        · rw [if_neg (by omega)]
        · split
          · rfl
          · rw [if_neg (by omega)]
      · simp only [get, ihr]
        split
        · rw [if_neg (by omega)]
        · split
          · rw [if_neg (by omega)]
          · rfl
end KTree

/-! ### Distinctness -/

/-- Insert all codes into a tree; `none` when one is already there. -/
def distinctFrom : KTree Unit → List Nat → Bool
  | _, [] => true
  | t, x :: xs => match t.get x with
    | some _ => false
    | none => distinctFrom (t.insert x ()) xs

theorem distinctFrom_sound {t : KTree Unit} {l : List Nat} (h : distinctFrom t l = true) : l.Nodup ∧ ∀ x ∈ l, t.get x = none := by
  induction l generalizing t with
  | nil => simp
  | cons x l ih =>
    simp only [distinctFrom] at h
    split at h
    · simp at h
    · rename_i hx
      obtain ⟨h1, h2⟩ := ih h
      refine ⟨List.nodup_cons.2 ⟨fun hm => ?_, h1⟩, ?_⟩
      · have := h2 x hm; rw [KTree.get_insert, if_pos rfl] at this; simp at this
      · intro y hy
        rcases List.mem_cons.1 hy with rfl | hy
        · exact hx
        · have := h2 y hy
          rw [KTree.get_insert] at this
          split at this
          · simp at this
          · exact this

/-- All strings of a list are different. -/
def distinctStrs (l : List Str) : Bool := distinctFrom .leaf (l.map strCode)

theorem distinctStrs_sound {l : List Str} (h : distinctStrs l = true) : l.Nodup :=
  List.Nodup.of_map _ (distinctFrom_sound h).1

/-! ### Resolution in one pass -/

section
variable {E M : Type} [Exponent E] [MagOps E M]

/-- Values of the names seen so far. -/
abbrev FastEnv (E M : Type) := KTree (Kind × DM E M)

/-- The value of an atom. -/
def fastLeaf (env : FastEnv E M) : Atom (DM E M) → Option (DM E M)
  | .concrete c => some c
  | .other x => (env.get (strCode x)).map Prod.snd

/-- The exponents of two dimensions agree, absent ones counting as zero. -/
def sameDims (a b : Dims E) : Bool :=
  a.all (fun kv => decide (kv.2 = (Dims.get b kv.1).getD Exponent.zero)) &&
    b.all (fun kv => decide (kv.2 = (Dims.get a kv.1).getD Exponent.zero))

/-- The annotation names a dimension with exactly these exponents. -/
def fastAnnotation (env : FastEnv E M) (d : DM E M) : Option Str → Bool
  | none => true
  | some a => match env.get (strCode a) with
    | some (.dimension, ad) => ad.dims.eq d.dims && sameDims ad.dims d.dims
    | _ => false

/-- One definition. -/
def fastStep (env : FastEnv E M) (i : Item E M) : Option (FastEnv E M) :=
  if (env.get (strCode i.ident)).isSome then none
  else if i.refs.all (fun x => match env.get (strCode x) with | some kd => i.kind.allows kd.1 | none => false) then
    match (i.expr.mapM (fastLeaf env)).bind Expr.eval with
    | none => none
    | some d => if fastAnnotation env d i.annotation then some (env.insert (strCode i.ident) (i.kind, d)) else none
  else none

/-- All definitions, in the given order. -/
def fastRun (env : FastEnv E M) : List (Item E M) → Option (FastEnv E M)
  | [] => some env
  | i :: l => match fastStep env i with
    | some env => fastRun env l
    | none => none

/-- What holds after the definitions `done`. -/
structure FastInv (done : List (Item E M)) (env : FastEnv E M) (res : BMap (ResolvedItem E M)) : Prop where
  sorted : res.Sorted
  agree : ∀ k, env.get (strCode k) = (res.get k).map fun r => (r.item.kind, r.dimensions)
  eqn : ∀ i ∈ done, ∃ d, res.get i.ident = some ⟨i, d⟩ ∧ resolveDimensions res i = some d
  only : ∀ k r, res.get k = some r → r.item ∈ done ∧ r.item.ident = k
  nodup : (done.map Item.ident).Nodup
  refs : ∀ i ∈ done, ∀ x ∈ i.refs, ∃ r, res.get x = some r ∧ i.kind.allows r.item.kind = true
  grounded : ∀ i ∈ done, Grounded (itemDefs done) i.ident
  ann : ∀ i ∈ done, ∀ a, i.annotation = some a → ∃ ra ri, res.get a = some ra ∧ res.get i.ident = some ri ∧
    ra.item.kind = .dimension ∧ ra.dimensions.dims.eq ri.dimensions.dims = true ∧ sameDims ra.dimensions.dims ri.dimensions.dims = true

theorem fastInv_nil : FastInv ([] : List (Item E M)) .leaf [] :=
  ⟨BMap.sorted_nil, fun _ => rfl, by simp, by simp [BMap.get], by simp, by simp, by simp, by simp⟩

theorem fastStep_sound {done : List (Item E M)} {env env' : FastEnv E M} {res : BMap (ResolvedItem E M)} (h : FastInv done env res)
    {i : Item E M} (hs : fastStep env i = some env') : ∃ res', FastInv (i :: done) env' res' := by
  unfold fastStep at hs
  split at hs
  · simp at hs
  · rename_i hfresh
    split at hs
    · rename_i hrefs
      split at hs
      · simp at hs
      · rename_i d hd
        split at hs
        · rename_i hann
          injection hs with hs
          subst hs
          have hnone : res.get i.ident = none := by
            have := h.agree i.ident
            cases hg : res.get i.ident with
            | none => rfl
            | some r => rw [hg] at this; simp [this] at hfresh
          have href : ∀ x ∈ i.refs, ∃ r, res.get x = some r ∧ i.kind.allows r.item.kind = true := by
            intro x hx
            have := List.all_eq_true.1 hrefs x hx
            rw [h.agree] at this
            cases hg : res.get x with
            | none => simp [hg] at this
            | some r => simp only [hg, Option.map_some] at this; exact ⟨r, rfl, this⟩
          have hrd : resolveDimensions res i = some d := by
            rw [resolveDimensions_def, ← hd]
            have : i.expr.mapM (leafOf res) = i.expr.mapM (fastLeaf env) := by
              apply Expr.mapM_congr
              intro a _
              cases a with
              | concrete c => rfl
              | other x => simp only [leafOf, fastLeaf, h.agree, Option.map_map]; rfl
            rw [this]
          have hget : ∀ k, BMap.get (res.insert i.ident ⟨i, d⟩) k = if k = i.ident then some ⟨i, d⟩ else res.get k := by
            intro k; rw [BMap.get_insert]
            by_cases hk : k = i.ident
            · simp [hk]
            · simp [hk, Ne.symm hk]
          have hold : ∀ k r, res.get k = some r → BMap.get (res.insert i.ident ⟨i, d⟩) k = some r := by
            intro k r hk
            rw [hget, if_neg, hk]
            rintro rfl; rw [hnone] at hk; simp at hk
          have hstable : ∀ j, (∀ x ∈ j.refs, ∃ r, res.get x = some r ∧ j.kind.allows r.item.kind = true) →
              resolveDimensions (res.insert i.ident ⟨i, d⟩) j = resolveDimensions res j := by
            intro j hj
            apply resolveDimensions_congr
            intro x hx
            obtain ⟨r, hr, _⟩ := hj x hx
            rw [hr, hold x r hr]
          refine ⟨res.insert i.ident ⟨i, d⟩, BMap.sorted_insert h.sorted _ _, ?_, ?_, ?_, ?_, ?_, ?_, ?_⟩
          · intro k
            rw [KTree.get_insert, hget]
            by_cases hk : k = i.ident
            · simp [hk]
            · rw [if_neg (fun e => hk (strCode_inj e)), if_neg hk, h.agree]
          · intro j hj
            rcases List.mem_cons.1 hj with rfl | hj
            · exact ⟨d, by rw [hget, if_pos rfl], by rw [hstable _ href, hrd]⟩
            · obtain ⟨dj, g, e⟩ := h.eqn j hj
              exact ⟨dj, hold _ _ g, by rw [hstable j (h.refs j hj), e]⟩
          · intro k r hk
            rw [hget] at hk
            split at hk
            · rename_i e
              injection hk with hk
              subst hk
              exact ⟨by simp, e.symm⟩
            · obtain ⟨h1, h2⟩ := h.only k r hk
              exact ⟨by simp [h1], h2⟩
          · rw [List.map_cons, List.nodup_cons]
            refine ⟨fun hm => ?_, h.nodup⟩
            obtain ⟨j, hj, e⟩ := List.mem_map.1 hm
            obtain ⟨dj, g, _⟩ := h.eqn j hj
            rw [e, hnone] at g; simp at g
          · intro j hj x hx
            have : ∃ r, res.get x = some r ∧ j.kind.allows r.item.kind = true := by
              rcases List.mem_cons.1 hj with rfl | hj
              · exact href x hx
              · exact h.refs j hj x hx
            obtain ⟨r, hr, ha⟩ := this
            exact ⟨r, hold x r hr, ha⟩
          · have hmono : ∀ p ∈ itemDefs done, p ∈ itemDefs (i :: done) := by
              intro p hp; simp only [itemDefs, List.map_cons]; exact List.mem_cons_of_mem _ hp
            intro j hj
            rcases List.mem_cons.1 hj with rfl | hj
            · refine .intro _ j.refs (by simp [itemDefs]) fun y hy => ?_
              obtain ⟨r, hr, _⟩ := href y hy
              obtain ⟨h1, h2⟩ := h.only y r hr
              rw [← h2]; exact grounded_mono hmono (h.grounded _ h1)
            · exact grounded_mono hmono (h.grounded j hj)
          · intro j hj a ha
            rcases List.mem_cons.1 hj with rfl | hj
            · rw [ha] at hann
              simp only [fastAnnotation, h.agree] at hann
              cases hg : res.get a with
              | none => simp [hg] at hann
              | some r =>
                simp only [hg, Option.map_some] at hann
                split at hann
                · rename_i ad heq
                  simp only [Option.some.injEq, Prod.mk.injEq] at heq
                  obtain ⟨e1, e2⟩ := heq
                  subst e2
                  simp only [Bool.and_eq_true] at hann
                  exact ⟨r, ⟨j, d⟩, hold a r hg, by rw [hget, if_pos rfl], e1, hann.1, hann.2⟩
                · simp at hann
            · obtain ⟨ra, ri, g1, g2, r⟩ := h.ann j hj a ha
              exact ⟨ra, ri, hold _ _ g1, hold _ _ g2, r⟩
        · simp at hs
    · simp at hs

theorem fastRun_sound {l done : List (Item E M)} {env env' : FastEnv E M} {res : BMap (ResolvedItem E M)} (h : FastInv done env res)
    (hs : fastRun env l = some env') : ∃ res', FastInv (l.reverse ++ done) env' res' := by
  induction l generalizing done env res with
  | nil => injection hs with hs; subst hs; exact ⟨res, by simpa using h⟩
  | cons i l ih =>
    simp only [fastRun] at hs
    split at hs
    · rename_i e he
      obtain ⟨res1, h1⟩ := fastStep_sound h he
      obtain ⟨res2, h2⟩ := ih h1 hs
      exact ⟨res2, by simpa using h2⟩
    · simp at hs

/-- Visit dimensions, constants, then the units in such an order that a unit precedes its prefixed and aliased forms. -/
def fastOrder (one : M) (factor : Prefix → M) (t : UnresolvedTemplates E M) : List (Item E M) :=
  t.dimensions.map Item.ofDimension ++ t.constants.map Item.ofConstant ++
    t.units.flatMap fun u => ((u.expand one factor).map Item.ofUnit).reverse

theorem flatMap_reverse_perm {α β : Type} (f : α → List β) (l : List α) : (l.flatMap fun a => (f a).reverse).Perm (l.flatMap f) := by
  induction l with
  | nil => simp
  | cons a l ih => simp only [List.flatMap_cons]; exact (List.reverse_perm _).append ih

theorem fastOrder_perm (one : M) (factor : Prefix → M) (t : UnresolvedTemplates E M) :
    (fastOrder one factor t).Perm (allItems (UnresolvedTemplates.expand one factor t)) := by
  unfold fastOrder allItems UnresolvedTemplates.expand
  simp only [List.append_assoc]
  refine List.Perm.append_left _ ?_
  refine List.perm_append_comm.trans ?_
  refine List.Perm.append_right _ ?_
  rw [List.map_flatMap]
  exact flatMap_reverse_perm (fun u : UnitTemplate E M => (u.expand one factor).map Item.ofUnit) t.units

/-- Base units name distinct base dimensions. -/
def fastBases (u : UnresolvedDefs E M) : Bool :=
  (baseOf u.units).all (fun d => u.dimensions.any fun e => e.isBase && decide (e.name = d)) && decide (baseOf u.units).Nodup

/-- Every base unit has a symbol. -/
def fastBaseSymbols (u : UnresolvedDefs E M) : Bool :=
  u.units.all fun x => match x.definition with
    | .base _ => x.symbol.isSome
    | .expression _ => true

/-- The one-pass check of a whole unit system; the result holds the values of all names. -/
def fastCheck (factor : Prefix → M) (t : UnresolvedTemplates E M) : Option (FastEnv E M) :=
  let u := UnresolvedTemplates.expand (MagOps.one E) factor t
  if t.quantityTypes.length = 1 ∧ t.dimensionTypes.length = 1 then
    if fastBases u && distinctStrs (u.units.filterMap UnitEntry.symbol) && fastBaseSymbols u then
      fastRun .leaf (fastOrder (MagOps.one E) factor t)
    else none
  else none

/-- If the one-pass check succeeds, the code's algorithm accepts the unit system, without any error. -/
theorem fastCheck_sound {factor : Prefix → M} {t : UnresolvedTemplates E M} {env : FastEnv E M} (h : fastCheck factor t = some env) :
    ∃ defs res, runUnitSystem factor t = some (defs, []) ∧
      Accepted (UnresolvedTemplates.expand (MagOps.one E) factor t) defs res ∧
      (∀ k, env.get (strCode k) = (res.get k).map fun r => (r.item.kind, r.dimensions)) ∧
      ∀ i ∈ allItems (UnresolvedTemplates.expand (MagOps.one E) factor t), ∀ a, i.annotation = some a →
        ∃ ra ri, res.get a = some ra ∧ res.get i.ident = some ri ∧ ra.item.kind = .dimension ∧
          sameDims ra.dimensions.dims ri.dimensions.dims = true := by
  unfold fastCheck at h
  simp only at h
  split at h
  · rename_i hty
    split at h
    · rename_i hb
      simp only [Bool.and_eq_true] at hb
      obtain ⟨⟨hb, hsy⟩, hbs⟩ := hb
      obtain ⟨res, hI⟩ := fastRun_sound fastInv_nil h
      rw [List.append_nil] at hI
      set u := UnresolvedTemplates.expand (MagOps.one E) factor t with hu
      have hmem : ∀ i, i ∈ (fastOrder (MagOps.one E) factor t).reverse ↔ i ∈ allItems u := by
        intro i; rw [List.mem_reverse]; exact (fastOrder_perm (MagOps.one E) factor t).mem_iff
      have hperm : ((fastOrder (MagOps.one E) factor t).reverse).Perm (allItems u) :=
        (List.reverse_perm _).trans (fastOrder_perm (MagOps.one E) factor t)
      have hnames : (allItems u).map Item.ident = u.names := allItems_ident u
      have hdefs : ∀ p, p ∈ itemDefs (fastOrder (MagOps.one E) factor t).reverse ↔ p ∈ u.definitions := by
        intro p; rw [← itemDefs_allItems]; exact (hperm.map _).mem_iff
      have hsol : Solution (allItems u) res :=
        ⟨hI.sorted, fun i hi => hI.eqn i ((hmem i).2 hi), fun k r hk => ⟨(hmem _).1 (hI.only k r hk).1, (hI.only k r hk).2⟩⟩
      obtain ⟨q, hq⟩ := List.length_eq_one_iff.1 hty.1
      obtain ⟨dt, hdt⟩ := List.length_eq_one_iff.1 hty.2
      obtain ⟨ds, hds⟩ := Option.isSome_iff_exists.1 (getDimensions_isSome res)
      obtain ⟨us, hus⟩ := Option.isSome_iff_exists.1 (getUnits_isSome res)
      obtain ⟨cs, hcs⟩ := Option.isSome_iff_exists.1 (getConstants_isSome res)
      have hacc : Accepted u ⟨dt, q, ds, us, cs, baseDimensions u.dimensions⟩ res := by
        refine ⟨hq, hdt, ?_, distinctStrs_sound hsy, rfl, ?_, ?_, ?_, ?_, hsol, ?_, hds, hus, hcs, ?_⟩
        · unfold fastBases at hb
          simp only [Bool.and_eq_true, List.all_eq_true, List.any_eq_true, decide_eq_true_eq] at hb
          exact ⟨fun d hd => hb.1 d hd, hb.2⟩
        · intro i hi x hx
          obtain ⟨r, hr, _⟩ := hI.refs i ((hmem i).2 hi) x hx
          obtain ⟨h1, h2⟩ := hI.only x r hr
          rw [← hnames, ← h2]; exact List.mem_map_of_mem (f := Item.ident) ((hmem _).1 h1)
        · rw [← hnames]; exact ((hperm.map Item.ident).nodup_iff).1 hI.nodup
        · intro i hi j hj hr
          obtain ⟨r, hr, ha⟩ := hI.refs i ((hmem i).2 hi) _ hr
          obtain ⟨d, g, _⟩ := hI.eqn j ((hmem j).2 hj)
          rw [g] at hr
          injection hr with hr
          subst hr; exact ha
        · intro x hx
          rw [← hnames] at hx
          obtain ⟨i, hi, rfl⟩ := List.mem_map.1 hx
          exact grounded_mono (fun p hp => (hdefs p).1 hp) (hI.grounded i ((hmem i).2 hi))
        · unfold checkAnnotations
          rw [List.flatMap_eq_nil_iff]
          rintro ⟨k, it⟩ hk
          have hg := (BMap.mem_iff_get hI.sorted).1 hk
          obtain ⟨h1, h2⟩ := hI.only k it hg
          cases ha : it.item.annotation with
          | none => simp [ha]
          | some a =>
            obtain ⟨ra, ri, g1, g2, g3, g4, _⟩ := hI.ann _ h1 a ha
            rw [h2, hg] at g2
            injection g2 with g2
            subst g2
            simp [ha, g1, g3, g4]
        · unfold checkBaseSymbols
          rw [List.filterMap_eq_nil_iff]
          intro U hU
          obtain ⟨x, hx, dm, _, rfl⟩ := ((units_of_solution hsol hus).1 U).1 hU
          have := List.all_eq_true.1 hbs x hx
          obtain ⟨n, sy, an, df, ag⟩ := x
          cases df with
          | base b =>
            simp only at this
            obtain ⟨s, hs⟩ := Option.isSome_iff_exists.1 this
            subst hs
            simp [UnitEntry.toDef]
          | expression e => simp [UnitEntry.toDef]
      refine ⟨_, res, (accepted_iff (expand_autoOk _ _ t)).2 ⟨res, hacc⟩, hacc, hI.agree, ?_⟩
      intro i hi a ha
      obtain ⟨ra, ri, g1, g2, g3, _, g4⟩ := hI.ann i ((hmem i).2 hi) a ha
      exact ⟨ra, ri, g1, g2, g3, g4⟩
    · simp at h
  · simp at h

end
end Diman
