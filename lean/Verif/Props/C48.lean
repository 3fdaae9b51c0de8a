import Verif.Model.Messages
import Verif.Props.C09
import Verif.Props.C11
import Verif.Props.C12
import Verif.Props.C13
import Verif.Props.C14
import Verif.Props.C38
import Verif.Props.C39
import Verif.Proofs.TextStr
/-!
# C48 — every problem is shown, by name, and the two sides of a dimension mismatch are shown completely
-/
set_option linter.unusedSectionVars false
namespace Diman

/-! ### Texts -/
/-- `Undefined identifier "x".` -/
def undefinedText (x : Str) : Str := str!"Undefined identifier \"" ++ x ++ str!"\"."
/-- `Unresolvable definition "x".` -/
def unresolvableText (x : Str) : Str := str!"Unresolvable definition \"" ++ x ++ str!"\"."
/-- `Identifier "x" defined multiple times.` -/
def duplicateText (x : Str) : Str := str!"Identifier \"" ++ x ++ str!"\" defined multiple times."
/-- `Symbol 's' is used for multiple units.` -/
def duplicateSymbolText (s : Str) : Str := str!"Symbol '" ++ s ++ str!"' is used for multiple units."

section
variable {E : Type} [Exponent E] [ShowExponent E]

theorem says_undefined (dims : Str → Dims E) (d : Diag) (x : Str) :
    (∃ m ∈ d.messages dims, m.text = undefinedText x) ↔ ∃ ids, d = .undefined ids ∧ x ∈ ids := by
  unfold undefinedText
  cases d <;> simp [Diag.messages]
  case kindNotAllowed l r lk rk => cases lk <;> simp [Kind.upper]

theorem says_unresolvable (dims : Str → Dims E) (d : Diag) (x : Str) :
    (∃ m ∈ d.messages dims, m.text = unresolvableText x) ↔ ∃ ids, d = .unresolvable ids ∧ x ∈ ids := by
  unfold unresolvableText
  cases d <;> simp [Diag.messages]
  case kindNotAllowed l r lk rk => cases lk <;> simp [Kind.upper]

theorem says_duplicate (dims : Str → Dims E) (d : Diag) (x : Str) :
    (∃ m ∈ d.messages dims, m.text = duplicateText x) ↔ ∃ gs, d = .multipleDefinitions gs ∧ ∃ g ∈ gs, g.headD [] = x := by
  unfold duplicateText
  cases d <;> simp [Diag.messages]
  case kindNotAllowed l r lk rk => cases lk <;> simp [Kind.upper]

theorem says_duplicateSymbol (dims : Str → Dims E) (d : Diag) (x : Str) :
    (∃ m ∈ d.messages dims, m.text = duplicateSymbolText x) ↔ ∃ us, d = .symbolMultiple x us := by
  unfold duplicateSymbolText
  cases d <;> simp [Diag.messages]
  case kindNotAllowed l r lk rk => cases lk <;> simp [Kind.upper]

/-! ### The list of dimensions of a mismatch -/

theorem mem_sortInsert {x y : Str} {l : List Str} : y ∈ sortInsert x l ↔ y = x ∨ y ∈ l := by
  induction l with
  | nil => simp [sortInsert]
  | cons z l ih =>
    unfold sortInsert
    split
    · rw [List.mem_cons, ih, List.mem_cons]; tauto
    · simp

theorem mem_sortIdents {y : Str} {l : List Str} : y ∈ sortIdents l ↔ y ∈ l := by
  unfold sortIdents
  induction l with
  | nil => simp
  | cons z l ih => rw [List.foldr_cons, mem_sortInsert, ih, List.mem_cons]

theorem sortInsert_sorted {x : Str} {l : List Str} (hl : l.Pairwise fun a b => Str.lt a b = true) (hx : x ∉ l) :
    (sortInsert x l).Pairwise fun a b => Str.lt a b = true := by
  induction l with
  | nil => simp [sortInsert]
  | cons z l ih =>
    rw [List.pairwise_cons] at hl
    rw [List.mem_cons, not_or] at hx
    unfold sortInsert
    split
    · rename_i h
      rw [List.pairwise_cons]
      refine ⟨fun y hy => ?_, ih hl.2 hx.2⟩
      rcases mem_sortInsert.1 hy with rfl | hy
      · exact h
      · exact hl.1 y hy
    · rename_i h
      have hlt := Str.lt_total (Ne.symm hx.1) (by simpa using h)
      rw [List.pairwise_cons, List.pairwise_cons]
      refine ⟨fun y hy => ?_, hl⟩
      rcases List.mem_cons.1 hy with rfl | hy
      · exact hlt
      · exact Str.lt_trans hlt (hl.1 y hy)

theorem sortIdents_sorted {l : List Str} (hl : l.Nodup) : (sortIdents l).Pairwise fun a b => Str.lt a b = true := by
  unfold sortIdents
  induction l with
  | nil => simp
  | cons z l ih =>
    rw [List.nodup_cons] at hl
    rw [List.foldr_cons]
    exact sortInsert_sorted (ih hl.2) (fun h => hl.1 (mem_sortIdents.1 h))

/-- A strictly increasing list is determined by its members. -/
theorem sorted_unique {l l' : List Str} (h : l.Pairwise fun a b => Str.lt a b = true) (h' : l'.Pairwise fun a b => Str.lt a b = true)
    (hm : ∀ x, x ∈ l ↔ x ∈ l') : l = l' := by
  induction l generalizing l' with
  | nil =>
    cases l' with
    | nil => rfl
    | cons y l' => have := (hm y).2 (by simp); simp at this
  | cons x l ih =>
    cases l' with
    | nil => have := (hm x).1 (by simp); simp at this
    | cons y l' =>
      rw [List.pairwise_cons] at h h'
      have hxy : x = y := by
        have h1 := (hm x).1 (by simp)
        have h2 := (hm y).2 (by simp)
        rcases List.mem_cons.1 h1 with h1 | h1
        · exact h1
        · rcases List.mem_cons.1 h2 with h2 | h2
          · exact h2.symm
          · have := Str.lt_trans (h.1 y h2) (h'.1 x h1)
            rw [Str.lt_irrefl] at this; simp at this
      subst hxy
      have hx : x ∉ l := fun hc => by have := h.1 x hc; rw [Str.lt_irrefl] at this; simp at this
      have hx' : x ∉ l' := fun hc => by have := h'.1 x hc; rw [Str.lt_irrefl] at this; simp at this
      rw [ih h.2 h'.2 fun z => ?_]
      have := hm z
      simp only [List.mem_cons] at this
      constructor
      · intro hz
        rcases this.1 (.inr hz) with rfl | h
        · exact absurd hz hx
        · exact h
      · intro hz
        rcases this.2 (.inr hz) with rfl | h
        · exact absurd hz hx'
        · exact h

end

/-- Printed exponents can be told apart and contain no blank. -/
class ReadableExponents (E : Type) [ShowExponent E] : Prop where
  inj : ∀ a b : E, ShowExponent.showE a = ShowExponent.showE b → a = b
  noBlank : ∀ a : E, ' ' ∉ ShowExponent.showE a

theorem showNat_inj {a b : Nat} (h : showNat a = showNat b) : a = b := by
  have h1 := (digitText_iff.1 (showNat_text a)).2
  have h2 := (digitText_iff.1 (showNat_text b)).2
  rw [h, h2] at h1
  injection h1 with h1
  exact h1.symm

theorem minus_notMem_showNat (a : Nat) : '-' ∉ showNat a := by
  intro hc
  obtain ⟨d, hd, he⟩ := digitText_chars (showNat_text a) hc
  revert he
  have : ∀ d < 10, '-' ≠ digitChar d := by decide
  exact fun he => this d hd he

theorem showInt_inj {a b : Int} (h : showInt a = showInt b) : a = b := by
  unfold showInt at h
  split at h <;> split at h
  · injection h with _ h; have := showNat_inj h; omega
  · exact absurd (h ▸ (by simp : '-' ∈ '-' :: showNat a.natAbs)) (minus_notMem_showNat _)
  · exact absurd (h.symm ▸ (by simp : '-' ∈ '-' :: showNat b.natAbs)) (minus_notMem_showNat _)
  · have := showNat_inj h; omega

theorem blank_notMem_showInt (a : Int) : ' ' ∉ showInt a := fun h => absurd (showInt_chars h).1 (by decide)

theorem append_cons_inj {α : Type} {a a' b b' : List α} {c : α} (ha : c ∉ a) (ha' : c ∉ a') (h : a ++ c :: b = a' ++ c :: b') :
    a = a' ∧ b = b' := by
  induction a generalizing a' with
  | nil =>
    cases a' with
    | nil => simpa using h
    | cons x a' => simp at h; simp [h.1] at ha'
  | cons x a ih =>
    cases a' with
    | nil => simp at h; simp [h.1] at ha
    | cons y a' =>
      simp only [List.cons_append, List.cons.injEq] at h
      simp only [List.mem_cons, not_or] at ha ha'
      obtain ⟨h1, h2⟩ := ih ha.2 ha'.2 h.2
      exact ⟨by rw [h.1, h1], h2⟩

instance : ReadableExponents Int := ⟨fun _ _ h => showInt_inj h, blank_notMem_showInt⟩
instance : ReadableExponents Ratio where
  inj a b h := by
    have sl : ∀ i, '/' ∉ showInt i := fun i hi => (showInt_chars hi).2.2 rfl
    obtain ⟨n, d⟩ := a
    obtain ⟨n', d'⟩ := b
    simp only [ShowExponent.showE] at h
    split at h <;> split at h
    · rename_i h1 h2; rw [showInt_inj h, h1, h2]
    · exact absurd (h ▸ (by simp : '/' ∈ showInt n' ++ '/' :: showInt d')) (sl _)
    · exact absurd (h ▸ (by simp : '/' ∈ showInt n ++ '/' :: showInt d)) (sl _)
    · obtain ⟨h1, h2⟩ := append_cons_inj (sl _) (sl _) h
      rw [showInt_inj h1, showInt_inj h2]
  noBlank a := by
    simp only [ShowExponent.showE]
    split
    · exact blank_notMem_showInt _
    · simp only [List.mem_append, List.mem_cons, not_or]
      exact ⟨blank_notMem_showInt _, by decide, blank_notMem_showInt _⟩

section
variable {E : Type} [Exponent E] [ShowExponent E]

/-- The exponent of `k` as an error message has it: zero if the dimension does not mention `k`. -/
def shownExponent (d : Dims E) (k : Str) : E := (Dims.get d k).getD Exponent.zero

/-- Two sides with the same list of dimensions read the same only if all exponents are the same. -/
theorem formatDims_inj [ReadableExponents E] (keys : List Str) (a b : Dims E) :
    formatDims keys a = formatDims keys b ↔ ∀ k ∈ keys, shownExponent a k = shownExponent b k := by
  constructor
  · intro h
    unfold formatDims at h
    induction keys with
    | nil => simp
    | cons k keys ih =>
      have nb := ReadableExponents.noBlank (E := E)
      cases keys with
      | nil =>
        simp only [List.map_cons, List.map_nil, joinStr, List.append_cancel_left_eq, List.cons.injEq, true_and] at h
        intro k' hk'
        rw [List.mem_singleton] at hk'
        subst hk'
        exact ReadableExponents.inj _ _ h
      | cons k2 keys =>
        simp only [List.map_cons, joinStr, List.append_assoc, List.append_cancel_left_eq, List.cons_append, List.cons.injEq, true_and,
          List.nil_append] at h
        obtain ⟨h1, h2⟩ := append_cons_inj (nb _) (nb _) h
        intro k' hk'
        rcases List.mem_cons.1 hk' with rfl | hk'
        · exact ReadableExponents.inj _ _ h1
        · exact ih (by simpa only [List.map_cons] using h2) k' hk'
  · intro h
    unfold formatDims
    congr 1
    apply List.map_congr_left
    intro k hk
    have := h k hk
    unfold shownExponent at this
    rw [this]

end

/-! ### What the macro shows -/
section
variable {E M : Type} [Exponent E] [ShowExponent E] [MagOps E M]

theorem emitted_eq {u : UnresolvedDefs E M} {defs : Defs E M} {ds : List Diag} (run : resolveDefs u = some (defs, ds))
    {res : BMap (ResolvedItem E M)} {d4 : List Diag} (hl : resolveLoop (survivors (allItems u)) [] = some (res, d4)) :
    emitted u = some (ds.flatMap (Diag.messages (resolvedDims res))) := by
  unfold emitted
  rw [run]
  unfold resolveItems
  unfold survivors at hl
  simp [hl]

/-- A report lists at least one identifier. -/
def Diag.Nonempty : Diag → Prop
  | .typeMultiple _ l => l ≠ []
  | .undefined l => l ≠ []
  | .unresolvable l => l ≠ []
  | .multipleDefinitions l => l ≠ []
  | _ => True

theorem messages_ne_nil {dims : Str → Dims E} {d : Diag} (h : d.Nonempty) : d.messages dims ≠ [] := by
  cases d <;> simp_all [Diag.messages, Diag.Nonempty]

theorem nonempty_of_tag {d : Diag} (h : d.tag ≠ 1 ∧ d.tag ≠ 5 ∧ d.tag ≠ 6 ∧ d.tag ≠ 8) : d.Nonempty := by
  cases d <;> simp_all [Diag.tag, Diag.Nonempty]

theorem diags_nonempty {u : UnresolvedDefs E M} {defs : Defs E M} {ds : List Diag} (run : resolveDefs u = some (defs, ds)) :
    ∀ d ∈ ds, d.Nonempty := by
  obtain ⟨res, d4, hl, _, _, _, _, _, _, rfl⟩ := resolveDefs_diags run
  have single : ∀ (l : List Str) (n d : Str), ∀ x ∈ (getSingleIdent l n d).2, x.Nonempty := by
    intro l n d x hx
    match l, hx with
    | [], hx => simp [getSingleIdent] at hx; subst hx; trivial
    | [_], hx => simp [getSingleIdent] at hx
    | a :: b :: c, hx => simp [getSingleIdent] at hx; subst hx; simp [Diag.Nonempty]
  intro d hd
  simp only [List.mem_append] at hd
  rcases hd with ((((hd | hd) | hd) | hd) | ((((hd | hd) | hd) | hd) | hd)) | hd
  · exact single _ _ _ d hd
  · exact single _ _ _ d hd
  · exact nonempty_of_tag (by rcases tag_checkBaseUnits hd with h | h <;> rw [h] <;> decide)
  · exact nonempty_of_tag (by rw [tag_checkSymbols hd]; decide)
  · unfold filterUndefined at hd
    simp only at hd
    split at hd
    · simp at hd
    · rename_i h
      simp only [List.mem_singleton] at hd
      subst hd
      intro hc; rw [hc] at h; simp at h
  · unfold multiplyDefined at hd
    simp only at hd
    split at hd
    · simp at hd
    · rename_i h
      simp only [List.mem_singleton] at hd
      subst hd
      intro hc; rw [hc] at h; simp at h
  · exact nonempty_of_tag (by rw [tag_checkKinds hd]; decide)
  · obtain ⟨done, l', _, _, rfl⟩ := resolveLoop_run hl
    split at hd
    · simp at hd
    · rename_i h
      simp only [List.mem_singleton] at hd
      subst hd
      intro hc
      rw [List.map_eq_nil_iff] at hc
      rw [hc] at h; simp at h
  · exact nonempty_of_tag (by rcases tag_checkAnnotations hd with h | h | h <;> rw [h] <;> decide)
  · exact nonempty_of_tag (by rw [tag_checkBaseSymbols hd]; decide)

theorem mem_flatMap_says {dims : Str → Dims E} {ds : List Diag} {P : Message → Prop} :
    (∃ m ∈ ds.flatMap (Diag.messages dims), P m) ↔ ∃ d ∈ ds, ∃ m ∈ d.messages dims, P m := by
  simp only [List.mem_flatMap]
  constructor
  · rintro ⟨m, ⟨d, hd, hm⟩, hp⟩; exact ⟨d, hd, m, hm, hp⟩
  · rintro ⟨d, hd, m, hm, hp⟩; exact ⟨m, ⟨d, hd, hm⟩, hp⟩

/-- The messages contain one with this text. -/
def Shows (msgs : List Message) (text : Str) : Prop := ∃ m ∈ msgs, m.text = text

/-- **C48, nothing is rejected silently.** Whenever the macro does not panic it shows a list of messages, and that list is empty exactly if
the unit system is accepted. -/
theorem C48_visible (factor : Prefix → M) (t : UnresolvedTemplates E M) (defs : Defs E M) (ds : List Diag)
    (run : runUnitSystem factor t = some (defs, ds)) :
    ∃ msgs, emitted (UnresolvedTemplates.expand (MagOps.one E) factor t) = some msgs ∧ (msgs = [] ↔ ds = []) := by
  obtain ⟨res, d4, hl, _⟩ := resolveDefs_diags run
  refine ⟨_, emitted_eq run hl, ?_⟩
  constructor
  · intro h
    cases ds with
    | nil => rfl
    | cons d ds =>
      rw [List.flatMap_cons, List.append_eq_nil_iff] at h
      exact absurd h.1 (messages_ne_nil (diags_nonempty run d (by simp)))
  · rintro rfl; rfl

/-- **C48, undefined identifiers.** `Undefined identifier "y".` is shown if and only if `y` is the first undefined identifier of some
definition (see C39), and it points at `y`. -/
theorem C48_undefined (factor : Prefix → M) (t : UnresolvedTemplates E M) (defs : Defs E M) (ds : List Diag)
    (run : runUnitSystem factor t = some (defs, ds)) (msgs : List Message)
    (shown : emitted (UnresolvedTemplates.expand (MagOps.one E) factor t) = some msgs) (y : Str) :
    (Shows msgs (undefinedText y) ↔
      ∃ x rs, (x, rs) ∈ (UnresolvedTemplates.expand (MagOps.one E) factor t).definitions ∧
        (rs.filter fun z => decide (z ∉ (UnresolvedTemplates.expand (MagOps.one E) factor t).names)).head? = some y) ∧
    ∀ m ∈ msgs, m.text = undefinedText y → m.marks = [y] := by
  obtain ⟨res, d4, hl, _⟩ := resolveDefs_diags run
  rw [emitted_eq run hl] at shown
  injection shown with shown
  subst shown
  constructor
  · rw [← C39_reported_iff_partial factor t defs ds run y]
    unfold Shows
    rw [mem_flatMap_says]
    simp only [says_undefined]
    constructor
    · rintro ⟨d, hd, ids, rfl, h⟩; exact ⟨ids, hd, h⟩
    · rintro ⟨ids, hd, h⟩; exact ⟨_, hd, ids, rfl, h⟩
  · intro m hm he
    obtain ⟨d, hd, hm⟩ := List.mem_flatMap.1 hm
    obtain ⟨ids, rfl, _⟩ := (says_undefined _ d y).1 ⟨m, hm, he⟩
    simp only [Diag.messages, List.mem_map] at hm
    obtain ⟨x, _, rfl⟩ := hm
    simp only [undefinedText, List.append_assoc, List.append_cancel_left_eq, List.append_cancel_right_eq] at he
    rw [he]

/-- **C48, recursive definitions.** With distinct names, `Unresolvable definition "x".` is shown if and only if `x` depends on a cycle or on
an undefined name while its own statement mentions defined names only (see C09), and it points at `x`. -/
theorem C48_unresolvable (factor : Prefix → M) (t : UnresolvedTemplates E M) (defs : Defs E M) (ds : List Diag)
    (run : runUnitSystem factor t = some (defs, ds))
    (distinct : (UnresolvedTemplates.expand (MagOps.one E) factor t).names.Nodup) (msgs : List Message)
    (shown : emitted (UnresolvedTemplates.expand (MagOps.one E) factor t) = some msgs) (x : Str) :
    (Shows msgs (unresolvableText x) ↔
      (∃ rs, t.Introduces x rs ∧ ∀ y ∈ rs, y ∈ (UnresolvedTemplates.expand (MagOps.one E) factor t).names) ∧
      DependsOnCycleOrUndefined (UnresolvedTemplates.expand (MagOps.one E) factor t).definitions x) ∧
    ∀ m ∈ msgs, m.text = unresolvableText x → m.marks = [x] := by
  obtain ⟨res, d4, hl, _⟩ := resolveDefs_diags run
  rw [emitted_eq run hl] at shown
  injection shown with shown
  subst shown
  constructor
  · rw [← C09_unresolvable_iff factor t defs ds run distinct x]
    unfold Shows
    rw [mem_flatMap_says]
    simp only [says_unresolvable]
    constructor
    · rintro ⟨d, hd, ids, rfl, h⟩; exact ⟨ids, hd, h⟩
    · rintro ⟨ids, hd, h⟩; exact ⟨_, hd, ids, rfl, h⟩
  · intro m hm he
    obtain ⟨d, hd, hm⟩ := List.mem_flatMap.1 hm
    obtain ⟨ids, rfl, _⟩ := (says_unresolvable _ d x).1 ⟨m, hm, he⟩
    simp only [Diag.messages, List.mem_map] at hm
    obtain ⟨x, _, rfl⟩ := hm
    simp only [unresolvableText, List.append_assoc, List.append_cancel_left_eq, List.append_cancel_right_eq] at he
    rw [he]

theorem group_head {l : List (Item E M)} {gs : List (List Str)} (h : Diag.multipleDefinitions gs ∈ multiplyDefined l) {g : List Str}
    (hg : g ∈ gs) (x : Str) : g.headD [] = x ↔ x ∈ g := by
  unfold multiplyDefined at h
  simp only at h
  split at h
  · simp at h
  · simp only [List.mem_singleton, Diag.multipleDefinitions.injEq] at h
    subst h
    obtain ⟨y, hy, rfl⟩ := List.mem_map.1 hg
    have hc := (List.mem_filter.1 hy).2
    simp only [decide_eq_true_eq] at hc
    rw [← List.count_filter (p := fun z => decide (z = y)) (by simp)] at hc
    have hall : ∀ z ∈ (l.map Item.ident).filter (fun z => decide (z = y)), z = y := fun z hz => by simpa using (List.mem_filter.1 hz).2
    cases hf : (l.map Item.ident).filter (fun z => decide (z = y)) with
    | nil => rw [hf] at hc; simp at hc
    | cons z zs =>
      rw [hf] at hall
      have hz := hall z (by simp)
      subst hz
      simp only [List.headD_cons]
      constructor
      · rintro rfl; simp
      · intro hx; exact (hall x hx).symm

/-- **C48, duplicate names.** If every mentioned name is defined, `Identifier "x" defined multiple times.` is shown if and only if `x` is
introduced more than once, and it marks all these definitions. -/
theorem C48_duplicate (factor : Prefix → M) (t : UnresolvedTemplates E M) (defs : Defs E M) (ds : List Diag)
    (run : runUnitSystem factor t = some (defs, ds))
    (defined : ∀ x rs, (x, rs) ∈ (UnresolvedTemplates.expand (MagOps.one E) factor t).definitions →
      ∀ y ∈ rs, y ∈ (UnresolvedTemplates.expand (MagOps.one E) factor t).names) (msgs : List Message)
    (shown : emitted (UnresolvedTemplates.expand (MagOps.one E) factor t) = some msgs) (x : Str) :
    (Shows msgs (duplicateText x) ↔ 1 < (UnresolvedTemplates.expand (MagOps.one E) factor t).names.count x) ∧
    ∀ m ∈ msgs, m.text = duplicateText x →
      m.marks = List.replicate ((UnresolvedTemplates.expand (MagOps.one E) factor t).names.count x) x := by
  obtain ⟨res, d4, hl, _⟩ := resolveDefs_diags run
  rw [emitted_eq run hl] at shown
  injection shown with shown
  subst shown
  rw [← C11_reported_iff factor t defs ds run defined x]
  obtain ⟨_, _, _, _, _, _, hm, _⟩ := diag_origin run
  unfold Shows
  rw [mem_flatMap_says]
  simp only [says_duplicate]
  refine ⟨?_, ?_⟩
  · constructor
    · rintro ⟨d, hd, gs, rfl, g, hg, h⟩
      exact ⟨gs, hd, g, hg, (group_head ((hm _ rfl).1 hd) hg x).1 h⟩
    · rintro ⟨gs, hd, g, hg, h⟩
      exact ⟨_, hd, gs, rfl, g, hg, (group_head ((hm _ rfl).1 hd) hg x).2 h⟩
  · intro m hmem he
    obtain ⟨d, hd, hmd⟩ := List.mem_flatMap.1 hmem
    obtain ⟨gs, rfl, _⟩ := (says_duplicate _ d x).1 ⟨m, hmd, he⟩
    simp only [Diag.messages, List.mem_map] at hmd
    obtain ⟨g, hg, rfl⟩ := hmd
    simp only [duplicateText, List.append_assoc, List.append_cancel_left_eq, List.append_cancel_right_eq] at he
    have hgs := (hm _ rfl).1 hd
    have hu : (filterUndefined (allItems (UnresolvedTemplates.expand (MagOps.one E) factor t))).2 = [] := by
      rw [filterUndefined_nil, allItems_ident]
      intro i hi y hy
      refine defined i.ident i.refs ?_ y hy
      rw [← itemDefs_allItems]
      exact mem_itemDefs.2 ⟨i, hi, rfl, rfl⟩
    rw [filterUndefined_eq hu, filterAutogenerated_eq (allItems_autoOk (expand_autoOk (MagOps.one E) factor t))] at hgs
    have hx := (group_head hgs hg x).1 he
    unfold multiplyDefined at hgs
    simp only at hgs
    split at hgs
    · simp at hgs
    · simp only [List.mem_singleton, Diag.multipleDefinitions.injEq] at hgs
      subst hgs
      obtain ⟨y, hy, rfl⟩ := List.mem_map.1 hg
      have := (List.mem_filter.1 hx).2
      simp only [decide_eq_true_eq] at this
      subst this
      simp only
      rw [allItems_ident, List.eq_replicate_iff]
      refine ⟨?_, fun b hb => by simpa using (List.mem_filter.1 hb).2⟩
      rw [List.count_eq_length_filter]
      congr 2
      funext z; exact Bool.eq_iff_iff.2 (by simp)

/-- **C48, duplicate symbols.** `Symbol 's' is used for multiple units.` is shown if and only if several units carry `s`, and it points at
exactly these units. -/
theorem C48_duplicate_symbol (factor : Prefix → M) (t : UnresolvedTemplates E M) (defs : Defs E M) (ds : List Diag)
    (run : runUnitSystem factor t = some (defs, ds)) (msgs : List Message)
    (shown : emitted (UnresolvedTemplates.expand (MagOps.one E) factor t) = some msgs) (s : Str) :
    (Shows msgs (duplicateSymbolText s) ↔
      1 < ((UnresolvedTemplates.expand (MagOps.one E) factor t).units.filter fun x => x.symbol = some s).length) ∧
    ∀ m ∈ msgs, m.text = duplicateSymbolText s →
      m.marks = ((UnresolvedTemplates.expand (MagOps.one E) factor t).units.filter fun x => x.symbol = some s).map UnitEntry.name := by
  obtain ⟨res, d4, hl, _⟩ := resolveDefs_diags run
  rw [emitted_eq run hl] at shown
  injection shown with shown
  subst shown
  have key := C11_symbol_iff factor t defs ds run s
  constructor
  · unfold Shows
    rw [mem_flatMap_says]
    simp only [says_duplicateSymbol]
    constructor
    · rintro ⟨d, hd, us, rfl⟩; exact ((key us).1 hd).1
    · intro h; exact ⟨_, (key _).2 ⟨h, rfl⟩, _, rfl⟩
  · intro m hm he
    obtain ⟨d, hd, hm⟩ := List.mem_flatMap.1 hm
    obtain ⟨us, rfl⟩ := (says_duplicateSymbol _ d s).1 ⟨m, hm, he⟩
    simp only [Diag.messages, List.mem_singleton] at hm
    rw [hm]
    exact ((key us).1 hd).2

/-- `Dimension mismatch in expression.` -/
def mismatchText : Str := str!"Dimension mismatch in expression."

theorem says_mismatch (dims : Str → Dims E) (d : Diag) (m : Message) (hm : m ∈ d.messages dims) (h : m.text = mismatchText) :
    ∃ x a, d = .violatedAnnotation x a := by
  unfold mismatchText at h
  cases d <;> simp [Diag.messages] at hm
  case violatedAnnotation x a => exact ⟨x, a, rfl⟩
  case kindNotAllowed l r lk rk =>
    subst hm
    -- `Dimension l is defined ... r.` and `Dimension mismatch in expression.` have different lengths or words
    cases lk <;> simp [Kind.upper] at h
    have h2 := congrArg List.length h
    cases rk <;> simp [Kind.lower] at h2 h <;> omega
  all_goals (obtain ⟨_, _, rfl⟩ := hm; simp at h)

/-- **C48, dimension mismatches.** Every mismatch message belongs to a unit or constant `x` annotated with a dimension `a`; it points at the
annotation, and its two helps list the same base dimensions, namely all those mentioned by either side, in alphabetical order, with
the exponent each side has. The list does not depend on the order in which hash maps are walked. -/
theorem C48_mismatch (factor : Prefix → M) (t : UnresolvedTemplates E M) (defs : Defs E M) (ds : List Diag)
    (run : runUnitSystem factor t = some (defs, ds))
    (distinct : (UnresolvedTemplates.expand (MagOps.one E) factor t).names.Nodup) (msgs : List Message)
    (shown : emitted (UnresolvedTemplates.expand (MagOps.one E) factor t) = some msgs) (m : Message) (hm : m ∈ msgs)
    (ht : m.text = mismatchText) :
    ∃ x a, (UnresolvedTemplates.expand (MagOps.one E) factor t).Annotated x a ∧ m.marks = [a] ∧
      ∃ D ∈ defs.dimensions, D.name = a ∧ ∃ d, defs.HasDims x d ∧
        ∃ keys : List Str, (keys.Pairwise fun p q => Str.lt p q = true) ∧
          (∀ k, k ∈ keys ↔ k ∈ D.dims.map Prod.fst ∨ k ∈ d.map Prod.fst) ∧
          m.notes = [(.help, str!"The annotation on the left-hand side has dimensions " ++ formatDims keys D.dims),
            (.help, str!"but the expression on the right-hand side has dimensions " ++ formatDims keys d)] := by
  obtain ⟨res, d4, hl, hsort, horig, gdim, gunit⟩ := generated_dims run
  rw [emitted_eq run hl] at shown
  injection shown with shown
  subst shown
  obtain ⟨dg, hdg, hm⟩ := List.mem_flatMap.1 hm
  obtain ⟨x, a, rfl⟩ := says_mismatch _ dg m hm ht
  obtain ⟨hA, D, hD, hDn, d, hd, _⟩ := (C14_violated_iff_partial factor t defs ds run distinct x a).1 hdg
  obtain ⟨r, hr, _, hrd⟩ := (gunit x d).1 hd
  obtain ⟨r', hr', _, hrd'⟩ := (gdim a D.dims).1 ⟨D, hD, hDn, rfl⟩
  simp only [Diag.messages, List.mem_singleton] at hm
  subst hm
  refine ⟨x, a, hA, rfl, D, hD, hDn, d, hd, sortIdents (availableDims D.dims d), sortIdents_sorted (dedup_nodup _), ?_, ?_⟩
  · intro k
    rw [mem_sortIdents, availableDims, mem_dedup, List.mem_append]
  · have e1 : resolvedDims res a = D.dims := by unfold resolvedDims; rw [hr']; exact hrd'
    have e2 : resolvedDims res x = d := by unfold resolvedDims; rw [hr]; exact hrd
    rw [e1, e2]
    rfl

/-- **C48, determinism.** However the set of base dimensions is enumerated, the two texts are the same. -/
theorem C48_order_irrelevant (available available' : List Str) (h : available.Nodup) (h' : available'.Nodup)
    (same : ∀ k, k ∈ available ↔ k ∈ available') (lhs rhs : Dims E) :
    formatSides available lhs rhs = formatSides available' lhs rhs := by
  have : sortIdents available = sortIdents available' := by
    refine sorted_unique (sortIdents_sorted h) (sortIdents_sorted h') fun k => ?_
    rw [mem_sortIdents, mem_sortIdents, same]
  unfold formatSides
  rw [this]

/-- **C48, the two sides look different exactly if they are different.** The two texts of a mismatch are equal if and only if the two
sides have the same exponent in every base dimension (a missing one counting as zero). -/
theorem C48_sides_equal_iff [ReadableExponents E] (available : List Str) (lhs rhs : Dims E)
    (complete : ∀ k, k ∈ available ↔ k ∈ lhs.map Prod.fst ∨ k ∈ rhs.map Prod.fst) :
    (formatSides available lhs rhs).1 = (formatSides available lhs rhs).2 ↔ ∀ k, shownExponent lhs k = shownExponent rhs k := by
  unfold formatSides
  rw [formatDims_inj]
  constructor
  · intro h k
    by_cases hk : k ∈ available
    · exact h k (mem_sortIdents.2 hk)
    · rw [complete, not_or] at hk
      have e1 : Dims.get lhs k = none := Dims.get_none_iff.2 hk.1
      have e2 : Dims.get rhs k = none := Dims.get_none_iff.2 hk.2
      unfold shownExponent; rw [e1, e2]
  · intro h k _; exact h k

end

section
open Sample
attribute [local instance] Sample.exactMag

/-- **C48, the false alarm of C14 as the user sees it.** The correct annotation `One` is rejected with a message whose two sides are the
same: `length^0` and `length^0`. -/
theorem C48_false_alarm : emitted (UnresolvedTemplates.expand (MagOps.one Int) exactFactor falseAlarm) =
    some [⟨mismatchText, [str!"One"],
      [(.help, str!"The annotation on the left-hand side has dimensions length^0"),
       (.help, str!"but the expression on the right-hand side has dimensions length^0")]⟩] := by
  decide +kernel

/-- The hypotheses are met: a system with an undefined name, a cycle, and a mismatch between `length^1 mass^0` and `length^0 mass^2`
(further examples, with the repository's own expected texts, are in `Examples/Ui.lean`). -/
def threeProblems : UnresolvedTemplates Int ℚ where
  quantityTypes := [str!"Q"]
  dimensionTypes := [str!"D"]
  dimensions := [⟨str!"Length", .base ()⟩, ⟨str!"Mass", .base ()⟩]
  units := [baseUnit (str!"kilograms") (str!"kg") (str!"Mass") [],
    unit (str!"foo") (.binary (.value (v (str!"kilograms"))) .mul (v (str!"kilograms"))) none [] (some (str!"Length")),
    unit (str!"bar") (.value (v (str!"nothing"))) none [] none,
    unit (str!"loop") (.value (v (str!"loop"))) none [] none]
  constants := []

example : emitted (UnresolvedTemplates.expand (MagOps.one Int) exactFactor threeProblems) =
    some [⟨undefinedText (str!"nothing"), [str!"nothing"], []⟩,
      ⟨unresolvableText (str!"loop"), [str!"loop"], [(.help, str!"Remove recursive definitions.")]⟩,
      ⟨mismatchText, [str!"Length"],
      [(.help, str!"The annotation on the left-hand side has dimensions length^1 mass^0"),
       (.help, str!"but the expression on the right-hand side has dimensions length^0 mass^2")]⟩] := by
  decide +kernel
example : (UnresolvedTemplates.expand (MagOps.one Int) exactFactor threeProblems).names.Nodup := by decide +kernel
example : (runUnitSystem exactFactor threeProblems).isSome := by decide +kernel
example : formatSides [str!"mass", str!"length"] [(str!"length", (1 : Int))] [(str!"mass", 2)] =
    (str!"length^1 mass^0", str!"length^0 mass^2") := by decide +kernel
end
end Diman
