import Verif.Props.C20
import Verif.Spec.TypeTree
/-!
# C66 — Types written with `Product` and `Quotient`
-/
set_option linter.unusedSectionVars false
namespace Diman
open LawfulExponent
section
variable {E : Type} [Exponent E] [LawfulExponent E] [FieldOps E] [LawfulFieldOps E]

theorem getD_zip {f : ℚ → ℚ → ℚ} (h0 : f 0 0 = 0) {a b : List ℚ} (h : a.length = b.length) (k : Nat) :
    (List.zipWith f a b).getD k 0 = f (a.getD k 0) (b.getD k 0) := by
  induction a generalizing b k with
  | nil =>
    cases b with
    | nil => simp [h0]
    | cons _ _ => cases h
  | cons x a ih =>
    cases b with
    | nil => cases h
    | cons y b =>
      cases k with
      | zero => simp
      | succ k => simpa using ih (by simpa using h) k

theorem list_ext_getD {a b : List ℚ} (h : a.length = b.length) (h' : ∀ k, a.getD k 0 = b.getD k 0) : a = b := by
  refine List.ext_getElem h fun k h1 h2 => ?_
  have := h' k
  simpa [List.getD_eq_getElem?_getD, h1, h2] using this

/-- What `*` and `/` do to the type. -/
structure OutInv (n : Nat) (t : Trait) (σ : Int) (l r out : Ty E) : Prop where
  wf : out.WF n
  expo : ∀ k, out.expo n k = l.expo n k + σ * r.expo n k
  storage : ∃ sl sr s, l.storage? = some sl ∧ r.storage? = some sr ∧ out.storage? = some s ∧ storageOut t sl sr = some s
  kind : out.isQty = (l.isQty || r.isQty)

theorem bare_wf (n : Nat) (s : Storage) : (Ty.bare s : Ty E).WF n := by
  intro d hd
  cases hd
  exact ⟨by simp [DimVal.none], DimVal.none_canonical n⟩

theorem expo_quantity (n : Nat) (s : Storage) (d : DimVal E) (k : Nat) : (Ty.quantity s d).expo n k = d.vec.getD k 0 := rfl
theorem expo_bare (n : Nat) (s : Storage) (k : Nat) : (Ty.bare s : Ty E).expo n k = 0 := by
  unfold Ty.expo
  simp only [Ty.dim, DimVal.none_vec]
  by_cases h : k < n <;> simp [List.getD_eq_getElem?_getD, h]

theorem out_inv {ss : List Storage} {n : Nat} {t : Trait} {σ : Int} (ht : t = .mul ∧ σ = 1 ∨ t = .div ∧ σ = -1) {l r out : Ty E}
    (h : OperatorOutput ss n t l r out) (hl : l.WF n) (hr : r.WF n) : OutInv n t σ l r out := by
  rcases h with h | ⟨a, b, c, rfl, rfl, rfl, h⟩
  · rw [C20_exactly] at h
    cases l with
    | quantity sl dl =>
      cases r with
      | quantity sr dr =>
        obtain ⟨s, hs, h⟩ := h
        have wl := hl dl rfl
        have wr := hr dr rfl
        rcases ht with ⟨rfl, rfl⟩ | ⟨rfl, rfl⟩
        · obtain ⟨-, d, hd, e⟩ := h
          cases e
          obtain ⟨c1, c2, c3, c4⟩ := DimVal.add_spec wl.2 wr.2 hd
          refine ⟨?_, fun k => ?_, ⟨sl, sr, s, rfl, rfl, rfl, hs⟩, rfl⟩
          · rintro _ ⟨⟩; exact ⟨c4.trans wl.1, c1⟩
          · rw [expo_quantity, expo_quantity, expo_quantity, c2, getD_zip (by simp) (by rw [DimVal.vec_length, DimVal.vec_length, c3])]
            simp
        · obtain ⟨-, d, hd, e⟩ := h
          cases e
          obtain ⟨c1, c2, c3, c4⟩ := DimVal.sub_spec wl.2 wr.2 hd
          refine ⟨?_, fun k => ?_, ⟨sl, sr, s, rfl, rfl, rfl, hs⟩, rfl⟩
          · rintro _ ⟨⟩; exact ⟨c4.trans wl.1, c1⟩
          · rw [expo_quantity, expo_quantity, expo_quantity, c2, getD_zip (by simp) (by rw [DimVal.vec_length, DimVal.vec_length, c3])]
            simp only [Int.cast_neg, Int.cast_one]; ring
      | bare sr =>
        obtain ⟨s, hs, h⟩ := h
        have wl := hl dl rfl
        have e : OpOut.value out = .value (.quantity s dl) := by
          rcases ht with ⟨rfl, rfl⟩ | ⟨rfl, rfl⟩ <;> exact h.2.2
        cases e
        refine ⟨?_, fun k => ?_, ⟨sl, sr, s, rfl, rfl, rfl, hs⟩, rfl⟩
        · rintro _ ⟨⟩; exact wl
        · rw [expo_bare, expo_quantity, expo_quantity]; simp
      | _ => exact absurd h id
    | bare sl =>
      cases r with
      | quantity sr dr =>
        obtain ⟨s, hs, -, h⟩ := h
        have wr := hr dr rfl
        rcases ht with ⟨rfl, rfl⟩ | ⟨rfl, rfl⟩
        · obtain ⟨-, e⟩ := h
          cases e
          refine ⟨?_, fun k => ?_, ⟨sl, sr, s, rfl, rfl, rfl, hs⟩, rfl⟩
          · rintro _ ⟨⟩; exact wr
          · rw [expo_bare, expo_quantity, expo_quantity]; simp
        · obtain ⟨-, d, hd, e⟩ := h
          cases e
          obtain ⟨c1, c2⟩ := DimVal.neg_spec wr.2 hd
          have hlen : d.length = dr.length := by
            have := congrArg List.length c2
            simpa [DimVal.vec_length] using this
          refine ⟨?_, fun k => ?_, ⟨sl, sr, s, rfl, rfl, rfl, hs⟩, rfl⟩
          · rintro _ ⟨⟩; exact ⟨hlen.trans wr.1, c1⟩
          · rw [expo_bare, expo_quantity, expo_quantity, c2]
            simp only [List.getD_eq_getElem?_getD, List.getElem?_map]
            cases dr.vec[k]? <;> simp
      | bare sr => exact absurd h id
      | _ => exact absurd h id
    | _ => cases r <;> exact absurd h id
  · refine ⟨bare_wf n c, fun k => ?_, ⟨a, b, c, rfl, rfl, rfl, h⟩, rfl⟩
    rw [expo_bare, expo_bare, expo_bare]; simp

theorem storageOut_muldiv {t : Trait} (ht : t = .mul ∨ t = .div) {a b c : Storage} (h : storageOut t a b = some c) :
    a.base = c.base ∧ b.base = c.base ∧ (a.isVector = true → a = c) ∧ (b.isVector = true → b = c) ∧ (c = a ∨ c = b) := by
  revert h
  rcases ht with rfl | rfl <;> cases a <;> cases b <;> cases c <;> decide +kernel

/-- **C66.** What a type written with `Product` and `Quotient` means, however it is nested: its exponents are those of the types in it, added for factors and
subtracted for divisors; it is a quantity exactly if one of them is; its numbers are of the one float type they all have, and it is a vector type
exactly if one of them is, and then that one. -/
theorem C66_meaning (ss : List Storage) (n : Nat) (tree : TypeTree E) (t : Ty E) (h : tree.Denotes ss n t) (wf : ∀ p ∈ tree.leaves, p.2.WF n) :
    t.WF n ∧ (∀ k, t.expo n k = (tree.leaves.map fun p => (p.1 : ℚ) * p.2.expo n k).sum) ∧
    (t.isQty = true ↔ ∃ p ∈ tree.leaves, p.2.isQty = true) ∧
    ∀ s, t.storage? = some s → (∀ p ∈ tree.leaves, ∃ s', p.2.storage? = some s' ∧ s'.base = s.base ∧ (s'.isVector = true → s' = s)) ∧
      ∃ p ∈ tree.leaves, p.2.storage? = some s := by
  have step : ∀ (op : Trait) (σ : Int), (op = .mul ∧ σ = 1 ∨ op = .div ∧ σ = -1) → ∀ (la lb : List (Int × Ty E)) (ta tb t : Ty E),
      OperatorOutput ss n op ta tb t →
      (ta.WF n ∧ (∀ k, ta.expo n k = (la.map fun p => (p.1 : ℚ) * p.2.expo n k).sum) ∧ (ta.isQty = true ↔ ∃ p ∈ la, p.2.isQty = true) ∧
        ∀ s, ta.storage? = some s → (∀ p ∈ la, ∃ s', p.2.storage? = some s' ∧ s'.base = s.base ∧ (s'.isVector = true → s' = s)) ∧
          ∃ p ∈ la, p.2.storage? = some s) →
      (tb.WF n ∧ (∀ k, tb.expo n k = (lb.map fun p => (p.1 : ℚ) * p.2.expo n k).sum) ∧ (tb.isQty = true ↔ ∃ p ∈ lb, p.2.isQty = true) ∧
        ∀ s, tb.storage? = some s → (∀ p ∈ lb, ∃ s', p.2.storage? = some s' ∧ s'.base = s.base ∧ (s'.isVector = true → s' = s)) ∧
          ∃ p ∈ lb, p.2.storage? = some s) →
      t.WF n ∧ (∀ k, t.expo n k = ((la ++ lb.map fun p => (σ * p.1, p.2)).map fun p => (p.1 : ℚ) * p.2.expo n k).sum) ∧
        (t.isQty = true ↔ ∃ p ∈ la ++ lb.map fun p => (σ * p.1, p.2), p.2.isQty = true) ∧
        ∀ s, t.storage? = some s → (∀ p ∈ la ++ lb.map fun p => (σ * p.1, p.2), ∃ s', p.2.storage? = some s' ∧ s'.base = s.base ∧ (s'.isVector = true → s' = s)) ∧
          ∃ p ∈ la ++ lb.map fun p => (σ * p.1, p.2), p.2.storage? = some s := by
    intro op σ hop la lb ta tb t hout ⟨a1, a2, a3, a4⟩ ⟨b1, b2, b3, b4⟩
    have I := out_inv hop hout a1 b1
    obtain ⟨sl, sr, s, e1, e2, e3, hs⟩ := I.storage
    obtain ⟨f1, f2, f3, f4, f5⟩ := storageOut_muldiv (by rcases hop with h | h; exacts [.inl h.1, .inr h.1]) hs
    refine ⟨I.wf, fun k => ?_, ?_, ?_⟩
    · rw [I.expo, a2, b2, List.map_append, List.sum_append, List.map_map]
      congr 1
      have : ∀ l : List (Int × Ty E), (σ : ℚ) * (l.map fun p => (p.1 : ℚ) * p.2.expo n k).sum =
          (l.map ((fun p : Int × Ty E => (p.1 : ℚ) * p.2.expo n k) ∘ fun p => (σ * p.1, p.2))).sum := by
        intro l
        induction l with
        | nil => simp
        | cons p l ih =>
          simp only [List.map_cons, List.sum_cons, Function.comp, mul_add] at ih ⊢
          rw [ih]; push_cast; ring
      exact this lb
    · rw [I.kind, Bool.or_eq_true, a3, b3]
      simp only [List.mem_append, List.mem_map]
      constructor
      · rintro (⟨p, hp, h⟩ | ⟨p, hp, h⟩)
        · exact ⟨p, .inl hp, h⟩
        · exact ⟨_, .inr ⟨p, hp, rfl⟩, h⟩
      · rintro ⟨p, hp | ⟨q, hq, rfl⟩, h⟩
        · exact .inl ⟨p, hp, h⟩
        · exact .inr ⟨q, hq, h⟩
    · intro s' hs'
      rw [e3] at hs'
      cases hs'
      obtain ⟨g1, p1, q1, r1⟩ := a4 sl e1
      obtain ⟨g2, p2, q2, r2⟩ := b4 sr e2
      refine ⟨?_, ?_⟩
      · intro p hp
        rcases List.mem_append.1 hp with hp | hp
        · obtain ⟨s', h1, h2, h3⟩ := g1 p hp
          exact ⟨s', h1, h2.trans f1, fun hv => by have := h3 hv; subst this; exact f3 hv⟩
        · obtain ⟨q, hq, rfl⟩ := List.mem_map.1 hp
          obtain ⟨s', h1, h2, h3⟩ := g2 q hq
          exact ⟨s', h1, h2.trans f2, fun hv => by have := h3 hv; subst this; exact f4 hv⟩
      · rcases f5 with rfl | rfl
        · exact ⟨p1, List.mem_append_left _ q1, r1⟩
        · exact ⟨_, List.mem_append_right _ (List.mem_map.2 ⟨p2, q2, rfl⟩), r2⟩
  induction h with
  | leaf t =>
    refine ⟨wf _ (List.mem_singleton.2 rfl), fun k => by simp [TypeTree.leaves], by simp [TypeTree.leaves], fun s hs => ⟨?_, ?_⟩⟩
    · intro p hp
      rw [List.mem_singleton.1 hp]
      exact ⟨s, hs, rfl, fun _ => rfl⟩
    · exact ⟨_, List.mem_singleton.2 rfl, hs⟩
  | @product a b ta tb t _ _ hout iha ihb =>
    have := step .mul 1 (.inl ⟨rfl, rfl⟩) _ _ _ _ _ hout (iha fun p hp => wf p (List.mem_append_left _ hp)) (ihb fun p hp => wf p (List.mem_append_right _ hp))
    have e : (b.leaves.map fun p : Int × Ty E => ((1 : Int) * p.1, p.2)) = b.leaves := by
      conv_rhs => rw [← List.map_id b.leaves]
      exact List.map_congr_left fun p _ => by simp
    rw [e] at this
    exact this
  | @quotient a b ta tb t _ _ hout iha ihb =>
    have := step .div (-1) (.inr ⟨rfl, rfl⟩) _ _ _ _ _ hout (iha fun p hp => wf p (List.mem_append_left _ hp))
      (ihb fun p hp => wf (-p.1, p.2) (List.mem_append_right _ (List.mem_map.2 ⟨p, hp, rfl⟩)))
    have e : (b.leaves.map fun p : Int × Ty E => ((-1 : Int) * p.1, p.2)) = b.leaves.map fun p => (-p.1, p.2) := by
      exact List.map_congr_left fun p _ => by simp
    rw [e] at this
    exact this

theorem leaves_ne (tree : TypeTree E) : tree.leaves ≠ [] := by
  induction tree with
  | leaf t => simp [TypeTree.leaves]
  | product a b iha _ => simp [TypeTree.leaves, iha]
  | quotient a b iha _ => simp [TypeTree.leaves, iha]

theorem storage_exists {ss : List Storage} {n : Nat} {tree : TypeTree E} {t : Ty E} (h : tree.Denotes ss n t) (wf : ∀ p ∈ tree.leaves, p.2.WF n)
    (hs : ∀ p ∈ tree.leaves, p.2.storage?.isSome = true) : ∃ s, t.storage? = some s := by
  cases h with
  | leaf t => exact Option.isSome_iff_exists.1 (hs _ (List.mem_singleton.2 rfl))
  | @product a b ta tb t ha hb hout =>
    obtain ⟨_, _, s, _, _, e, _⟩ := (out_inv (.inl ⟨rfl, rfl⟩) hout
      (C66_meaning ss n a ta ha fun p hp => wf p (List.mem_append_left _ hp)).1 (C66_meaning ss n b tb hb fun p hp => wf p (List.mem_append_right _ hp)).1).storage
    exact ⟨s, e⟩
  | @quotient a b ta tb t ha hb hout =>
    obtain ⟨_, _, s, _, _, e, _⟩ := (out_inv (.inr ⟨rfl, rfl⟩) hout
      (C66_meaning ss n a ta ha fun p hp => wf p (List.mem_append_left _ hp)).1
      (C66_meaning ss n b tb hb fun p hp => wf (-p.1, p.2) (List.mem_append_right _ (List.mem_map.2 ⟨p, hp, rfl⟩))).1).storage
    exact ⟨s, e⟩

theorem ty_determined {n : Nat} {t t' : Ty E} (w : t.WF n) (w' : t'.WF n) {s : Storage} (h : t.storage? = some s) (h' : t'.storage? = some s)
    (k : t.isQty = t'.isQty) (e : ∀ j, t.expo n j = t'.expo n j) : t = t' := by
  cases t with
  | quantity a d =>
    cases t' with
    | quantity b d' =>
      cases h; cases h'
      have := w d rfl
      have := w' d' rfl
      congr 1
      refine DimVal.ext (w d rfl).2 (w' d' rfl).2 (list_ext_getD ?_ e)
      rw [DimVal.vec_length, DimVal.vec_length, (w d rfl).1, (w' d' rfl).1]
    | _ => cases k
  | bare a =>
    cases t' with
    | bare b => cases h; cases h'; rfl
    | quantity b d => cases k
    | _ => cases h'
  | _ => cases h

/-- **C66.** Grouping and order do not matter: two types built with `Product` and `Quotient` from the same quantities and numbers, each as often a factor and a
divisor, are the same type, if both compile. -/
theorem C66_same (ss : List Storage) (n : Nat) (a b : TypeTree E) (ta tb : Ty E) (ha : a.Denotes ss n ta) (hb : b.Denotes ss n tb)
    (wf : ∀ p ∈ a.leaves, p.2.WF n ∧ p.2.storage?.isSome = true) (same : a.leaves.Perm b.leaves) : ta = tb := by
  have wf' : ∀ p ∈ b.leaves, p.2.WF n ∧ p.2.storage?.isSome = true := fun p hp => wf p (same.symm.subset hp)
  obtain ⟨a1, a2, a3, a4⟩ := C66_meaning ss n a ta ha fun p hp => (wf p hp).1
  obtain ⟨b1, b2, b3, b4⟩ := C66_meaning ss n b tb hb fun p hp => (wf' p hp).1
  obtain ⟨s, hs⟩ := storage_exists ha (fun p hp => (wf p hp).1) fun p hp => (wf p hp).2
  obtain ⟨s', hs'⟩ := storage_exists hb (fun p hp => (wf' p hp).1) fun p hp => (wf' p hp).2
  obtain ⟨a4, pa, qa, ra⟩ := a4 s hs
  obtain ⟨b4, pb, qb, rb⟩ := b4 s' hs'
  have es : s = s' := by
    obtain ⟨s1, h1, h2, h3⟩ := b4 pa (same.subset qa)
    obtain ⟨s2, g1, g2, g3⟩ := a4 pb (same.symm.subset qb)
    rw [ra] at h1
    rw [rb] at g1
    cases h1; cases g1
    revert h2 h3 g2 g3
    cases s <;> cases s' <;> simp [Storage.isVector, Storage.isFloat, Storage.base]
  subst es
  refine ty_determined a1 b1 hs hs' ?_ fun k => ?_
  · rw [Bool.eq_iff_iff, a3, b3]
    exact ⟨fun ⟨p, hp, h⟩ => ⟨p, same.subset hp, h⟩, fun ⟨p, hp, h⟩ => ⟨p, same.symm.subset hp, h⟩⟩
  · rw [a2, b2]
    exact (same.map _).sum_eq

/-- **C66.** `Quotient<Product<A, B>, B>` is `A`, `Product<A, Quotient<B, A>>` is `B` and `Quotient<A, Quotient<A, B>>` is `B`, for quantities with the same storage
type, whenever they compile. -/
theorem C66_cancel (ss : List Storage) (n : Nat) (s : Storage) (da db : DimVal E) (wa : (Ty.quantity s da).WF n) (wb : (Ty.quantity s db).WF n) (t : Ty E) :
    ((TypeTree.quotient (.product (.leaf (.quantity s da)) (.leaf (.quantity s db))) (.leaf (.quantity s db))).Denotes ss n t → t = .quantity s da) ∧
    ((TypeTree.product (.leaf (.quantity s da)) (.quotient (.leaf (.quantity s db)) (.leaf (.quantity s da)))).Denotes ss n t → t = .quantity s db) ∧
    ((TypeTree.quotient (.leaf (.quantity s da)) (.quotient (.leaf (.quantity s da)) (.leaf (.quantity s db)))).Denotes ss n t → t = .quantity s db) := by
  have all : ∀ (tree : TypeTree E), (∀ p ∈ tree.leaves, p.2 = .quantity s da ∨ p.2 = .quantity s db) → tree.Denotes ss n t →
      ∀ d, (Ty.quantity s d).WF n → (∀ k, (tree.leaves.map fun p => (p.1 : ℚ) * p.2.expo n k).sum = (Ty.quantity s d).expo n k) → t = .quantity s d := by
    intro tree hl ht d wd he
    have wf : ∀ p ∈ tree.leaves, p.2.WF n := fun p hp => by rcases hl p hp with h | h <;> rw [h] <;> assumption
    have st : ∀ p ∈ tree.leaves, p.2.storage? = some s := fun p hp => by rcases hl p hp with h | h <;> rw [h] <;> rfl
    obtain ⟨a1, a2, a3, a4⟩ := C66_meaning ss n tree t ht wf
    obtain ⟨s', hs'⟩ := storage_exists ht wf fun p hp => by rw [st p hp]; rfl
    obtain ⟨-, p, hp, hps⟩ := a4 s' hs'
    rw [st p hp] at hps
    cases hps
    refine ty_determined a1 wd hs' rfl ?_ fun k => (a2 k).trans (he k)
    rw [a3.2 ⟨p, hp, by rcases hl p hp with h | h <;> rw [h] <;> rfl⟩]; rfl
  refine ⟨fun h => all _ ?_ h _ wa fun k => ?_, fun h => all _ ?_ h _ wb fun k => ?_, fun h => all _ ?_ h _ wb fun k => ?_⟩
  all_goals first
    | (simp only [TypeTree.leaves, List.map_cons, List.map_nil, List.cons_append, List.nil_append, List.mem_cons, List.not_mem_nil, or_false]
       rintro p (rfl | rfl | rfl) <;> simp)
    | (simp [TypeTree.leaves])

/-- **C66.** `Product` and `Quotient` of two quantities exist exactly if the storage types can be multiplied (divided) and the exponents added (subtracted) without
overflow. -/
theorem C66_exists (ss : List Storage) (n : Nat) (sa sb : Storage) (da db : DimVal E) (t : Ty E) :
    ((TypeTree.product (.leaf (.quantity sa da)) (.leaf (.quantity sb db))).Denotes ss n t ↔
      ∃ s d, storageOut .mul sa sb = some s ∧ da.add db = some d ∧ t = .quantity s d) ∧
    ((TypeTree.quotient (.leaf (.quantity sa da)) (.leaf (.quantity sb db))).Denotes ss n t ↔
      ∃ s d, storageOut .div sa sb = some s ∧ da.sub db = some d ∧ t = .quantity s d) := by
  refine ⟨⟨fun h => ?_, fun h => ?_⟩, ⟨fun h => ?_, fun h => ?_⟩⟩
  · cases h with
    | product ha hb h =>
      cases ha; cases hb
      rcases h with h | ⟨_, _, _, h, _⟩
      · rw [C20_exactly] at h
        obtain ⟨s, hs, -, d, hd, e⟩ := h
        cases e
        exact ⟨s, d, hs, hd, rfl⟩
      · cases h
  · obtain ⟨s, d, hs, hd, rfl⟩ := h
    refine .product (.leaf _) (.leaf _) (.inl ((C20_exactly _ _ _ _ _ _).2 ⟨s, hs, ⟨?_, ?_⟩, d, hd, rfl⟩)) <;> (intro h; cases h)
  · cases h with
    | quotient ha hb h =>
      cases ha; cases hb
      rcases h with h | ⟨_, _, _, h, _⟩
      · rw [C20_exactly] at h
        obtain ⟨s, hs, -, d, hd, e⟩ := h
        cases e
        exact ⟨s, d, hs, hd, rfl⟩
      · cases h
  · obtain ⟨s, d, hs, hd, rfl⟩ := h
    refine .quotient (.leaf _) (.leaf _) (.inl ((C20_exactly _ _ _ _ _ _).2 ⟨s, hs, ⟨?_, ?_⟩, d, hd, rfl⟩)) <;> (intro h; cases h)

end

/-! ### Concrete types -/

-- `Product<Length<f64>, Time<f64>>` in a unit system with three base dimensions (src/lib.rs:518-526), and the other way round.
example : (TypeTree.product (.leaf (.quantity .f64 [1, 0, 0])) (.leaf (.quantity .f64 [0, 1, 0]))).Denotes (E := Int) [.f32, .f64] 3
    (.quantity .f64 [1, 1, 0]) := ((C66_exists _ _ _ _ _ _ _).1).2 ⟨_, _, rfl, by decide, rfl⟩

example (t : Ty Int) (h : (TypeTree.product (.leaf (.quantity .f64 [0, 1, 0])) (.leaf (.quantity .f64 [1, 0, 0]))).Denotes [.f32, .f64] 3 t) :
    t = .quantity .f64 [1, 1, 0] := by
  refine C66_same [.f32, .f64] 3 _ _ _ _ h (((C66_exists [.f32, .f64] 3 .f64 .f64 [1, 0, 0] [0, 1, 0] _).1).2 ⟨_, _, rfl, by decide, rfl⟩) ?_ ?_
  · simp only [TypeTree.leaves, List.cons_append, List.nil_append, List.mem_cons, List.not_mem_nil, or_false]
    rintro p (rfl | rfl) <;> refine ⟨?_, rfl⟩ <;> rintro d ⟨⟩ <;> exact ⟨rfl, fun _ _ => trivial⟩
  · exact .swap _ _ _

-- A velocity vector divided by a scalar velocity: `Quotient<Velocity<DVec2>, Velocity<f64>>` is a vector without dimension.
example : (TypeTree.quotient (.leaf (.quantity .dvec2 [1, -1])) (.leaf (.quantity .f64 [1, -1]))).Denotes (E := Int) [.f64, .dvec2] 2
    (.quantity .dvec2 [0, 0]) := ((C66_exists _ _ _ _ _ _ _).2).2 ⟨_, _, rfl, by decide, rfl⟩

end Diman
