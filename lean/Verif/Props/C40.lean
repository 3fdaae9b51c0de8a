import Verif.Spec.HashOrder
import Verif.Proofs.Generated
import Verif.Proofs.Resolve
import Verif.Examples.Sample
/-!
# C40: the generated definitions do not depend on hash map iteration order
-/
set_option linter.unusedSectionVars false
set_option linter.unnecessarySeqFocus false
namespace Diman

/-! ### Maps as functions -/
namespace Dims
variable {E : Type} [Exponent E]

theorem get_perm {a b : Dims E} (h : List.Perm a b) (hn : (a.map Prod.fst).Nodup) (k : Str) : Dims.get a k = Dims.get b k := by
  have hb : (b.map Prod.fst).Nodup := ((h.map Prod.fst).nodup_iff).1 hn
  cases hg : Dims.get a k with
  | none =>
    symm
    rw [get_none_iff] at hg ⊢
    exact fun hm => hg (((h.map Prod.fst).mem_iff).2 hm)
  | some v => exact (get_of_mem hb (h.mem_iff.1 (get_mem hg))).symm

theorem perm_of_get {a b : Dims E} (ha : (a.map Prod.fst).Nodup) (hb : (b.map Prod.fst).Nodup)
    (h : ∀ k, Dims.get a k = Dims.get b k) : List.Perm a b := by
  refine (List.perm_ext_iff_of_nodup (List.Nodup.of_map _ ha) (List.Nodup.of_map _ hb)).2 ?_
  rintro ⟨k, v⟩
  constructor
  · intro hm; exact get_mem (by rw [← h]; exact get_of_mem ha hm)
  · intro hm; exact get_mem (by rw [h]; exact get_of_mem hb hm)

theorem addEntry_none {d : Dims E} {k : Str} {v : E} :
    d.addEntry k v = none ↔ ∃ w, Dims.get d k = some w ∧ Exponent.add w v = none := by
  induction d with
  | nil => simp [addEntry, get]
  | cons p d ih =>
    obtain ⟨k', v'⟩ := p
    unfold addEntry get
    by_cases hk : k' = k
    · simp only [if_pos hk, Option.some.injEq, exists_eq_left']
      cases Exponent.add v' v <;> simp
    · simp only [if_neg hk, ← ih]
      cases addEntry d k v <;> simp

theorem addEntry_keys {d d' : Dims E} {k : Str} {v : E} (h : d.addEntry k v = some d') (hn : (d.map Prod.fst).Nodup) :
    (d'.map Prod.fst).Nodup := by
  obtain ⟨_, h2⟩ := addEntry_spec h
  cases hg : Dims.get d k with
  | none =>
    simp only [hg] at h2
    rw [h2.2]
    rw [get_none_iff] at hg
    exact List.nodup_append.2 ⟨hn, by simp, by
      intro a ha b hb
      rw [List.mem_singleton] at hb
      subst hb; rintro rfl; exact hg ha⟩
  | some w => simp only [hg] at h2; obtain ⟨s, _, _, h3⟩ := h2; rw [h3]; exact hn

/-- The product, entry by entry. -/
def mulAt (a b : Dims E) (k : Str) : Option (Option E) :=
  match Dims.get a k, Dims.get b k with
  | some v, some w => (Exponent.add v w).map some
  | some v, none => some (some v)
  | none, o => some o

theorem addEntry_get {d d' : Dims E} {k : Str} {v : E} (h : d.addEntry k v = some d') (k' : Str) :
    Dims.get d' k' = if k' = k then (match Dims.get d k with | none => some v | some w => Exponent.add w v) else Dims.get d k' := by
  obtain ⟨h1, h2⟩ := addEntry_spec h
  by_cases hk : k' = k
  · subst hk
    rw [if_pos rfl]
    cases hg : Dims.get d k' with
    | none => simp only [hg] at h2 ⊢; exact h2.1
    | some w =>
      simp only [hg] at h2 ⊢
      obtain ⟨s, hs1, hs2, _⟩ := h2
      rw [hs2, hs1]
  · rw [if_neg hk]; exact h1 k' hk

theorem mul_at {a b : Dims E} (ha : (a.map Prod.fst).Nodup) (hb : (b.map Prod.fst).Nodup) :
    (a.mul b = none ↔ ∃ k, mulAt a b k = none) ∧
    ∀ c, a.mul b = some c → (c.map Prod.fst).Nodup ∧ ∀ k, mulAt a b k = some (Dims.get c k) := by
  induction b generalizing a with
  | nil =>
    refine ⟨?_, ?_⟩
    · constructor
      · intro h; simp [mul] at h
      · rintro ⟨k, hk⟩
        unfold mulAt at hk
        cases hg : Dims.get a k <;> simp [hg, get] at hk
    · intro c hc
      simp only [mul, Option.some.injEq] at hc
      subst hc
      refine ⟨ha, fun k => ?_⟩
      unfold mulAt
      cases hg : Dims.get a k <;> simp [get]
  | cons p b ih =>
    obtain ⟨k, v⟩ := p
    rw [List.map_cons, List.nodup_cons] at hb
    have hgb : Dims.get b k = none := get_none_iff.2 hb.1
    -- how one entry changes the pointwise product
    have key : ∀ a', a.addEntry k v = some a' → ∀ k', mulAt a ((k, v) :: b) k' = mulAt a' b k' := by
      intro a' h k'
      have hg := addEntry_get h k'
      unfold mulAt
      rw [hg]
      have hcons : Dims.get ((k, v) :: b) k' = if k = k' then some v else Dims.get b k' := rfl
      rw [hcons]
      by_cases hk : k' = k
      · subst hk
        simp only [if_true, hgb]
        cases hga : Dims.get a k' with
        | none => rfl
        | some w =>
          simp only
          have : Exponent.add w v ≠ none := fun hn => by
            have := addEntry_none.2 ⟨w, hga, hn⟩
            rw [this] at h; simp at h
          cases hadd : Exponent.add w v with
          | none => exact absurd hadd this
          | some s => rfl
      · simp only [if_neg hk, if_neg (Ne.symm hk)]
    have hmul : a.mul ((k, v) :: b) = (a.addEntry k v).bind fun a' => a'.mul b := rfl
    cases h : a.addEntry k v with
    | none =>
      rw [hmul, h]
      refine ⟨⟨fun _ => ?_, fun _ => rfl⟩, by simp⟩
      obtain ⟨w, hw, hadd⟩ := addEntry_none.1 h
      refine ⟨k, ?_⟩
      unfold mulAt
      have hcons : Dims.get ((k, v) :: b) k = some v := by simp [get]
      rw [hw, hcons]
      simp [hadd]
    | some a' =>
      rw [hmul, h]
      simp only [Option.bind_some]
      obtain ⟨i1, i2⟩ := ih (addEntry_keys h ha) hb.2
      refine ⟨?_, fun c hc => ?_⟩
      · rw [i1]
        constructor
        · rintro ⟨k', hk'⟩; exact ⟨k', by rw [key a' h k']; exact hk'⟩
        · rintro ⟨k', hk'⟩; exact ⟨k', by rw [← key a' h k']; exact hk'⟩
      · obtain ⟨j1, j2⟩ := i2 c hc
        exact ⟨j1, fun k' => by rw [key a' h k']; exact j2 k'⟩

/-- Operations that treat every entry separately (`inv`, `pow`). -/
theorem each_at {f : E → Option E} {g : Dims E → Option (Dims E)} (g0 : g [] = some [])
    (g1 : ∀ k v m, g ((k, v) :: m) = (f v).bind fun v' => (g m).map fun m' => (k, v') :: m') (a : Dims E) :
    (g a = none ↔ ∃ k v, Dims.get a k = some v ∧ f v = none ∨ ∃ p ∈ a, f p.2 = none) ∧
    ∀ c, g a = some c → c.map Prod.fst = a.map Prod.fst ∧ ∀ k, Dims.get c k = (Dims.get a k).bind f := by
  have hnone : g a = none ↔ ∃ p ∈ a, f p.2 = none := by
    induction a with
    | nil => simp [g0]
    | cons p a ih =>
      obtain ⟨k, v⟩ := p
      rw [g1]
      cases hf : f v with
      | none => simp [hf]
      | some v' =>
        simp only [Option.bind_some, Option.map_eq_none_iff, ih, List.mem_cons, exists_eq_or_imp]
        simp [hf]
  refine ⟨?_, ?_⟩
  · rw [hnone]
    constructor
    · rintro ⟨p, hp, hf⟩
      exact ⟨p.1, p.2, .inr ⟨p, hp, hf⟩⟩
    · rintro ⟨k, v, ⟨h1, h2⟩ | h⟩
      · exact ⟨(k, v), get_mem h1, h2⟩
      · exact h
  · clear hnone
    induction a with
    | nil => intro c hc; rw [g0] at hc; injection hc with hc; subst hc; exact ⟨rfl, fun k => rfl⟩
    | cons p a ih =>
      obtain ⟨k, v⟩ := p
      intro c hc
      rw [g1] at hc
      cases hf : f v with
      | none => rw [hf] at hc; simp at hc
      | some v' =>
        rw [hf] at hc
        simp only [Option.bind_some, Option.map_eq_some_iff] at hc
        obtain ⟨m, hm, rfl⟩ := hc
        obtain ⟨i1, i2⟩ := ih m hm
        refine ⟨by simp [i1], fun k' => ?_⟩
        unfold get
        by_cases hk : k = k'
        · simp [hk, hf]
        · simp only [if_neg hk]; exact i2 k'

theorem each_perm {f : E → Option E} {g : Dims E → Option (Dims E)} (g0 : g [] = some [])
    (g1 : ∀ k v m, g ((k, v) :: m) = (f v).bind fun v' => (g m).map fun m' => (k, v') :: m') {a b : Dims E} (h : List.Perm a b)
    (hn : (a.map Prod.fst).Nodup) : SameEntries (g a) (g b) ∧ ∀ c, g a = some c → (c.map Prod.fst).Nodup := by
  obtain ⟨a1, a2⟩ := each_at g0 g1 a
  obtain ⟨b1, b2⟩ := each_at g0 g1 b
  have hb : (b.map Prod.fst).Nodup := ((h.map Prod.fst).nodup_iff).1 hn
  have hiff : g a = none ↔ g b = none := by
    rw [a1, b1]
    constructor
    · rintro ⟨k, v, ⟨h1, h2⟩ | ⟨p, hp, hf⟩⟩
      · exact ⟨k, v, .inl ⟨by rw [← get_perm h hn]; exact h1, h2⟩⟩
      · exact ⟨k, v, .inr ⟨p, h.mem_iff.1 hp, hf⟩⟩
    · rintro ⟨k, v, ⟨h1, h2⟩ | ⟨p, hp, hf⟩⟩
      · exact ⟨k, v, .inl ⟨by rw [get_perm h hn]; exact h1, h2⟩⟩
      · exact ⟨k, v, .inr ⟨p, h.mem_iff.2 hp, hf⟩⟩
  have hnd : ∀ c, g a = some c → (c.map Prod.fst).Nodup := fun c hc => by rw [(a2 c hc).1]; exact hn
  refine ⟨?_, hnd⟩
  cases ha : g a with
  | none => rw [hiff.1 ha]; trivial
  | some c =>
    cases hb' : g b with
    | none => rw [hiff.2 hb'] at ha; simp at ha
    | some d =>
      refine perm_of_get (hnd c ha) (by rw [(b2 d hb').1]; exact hb) fun k => ?_
      rw [(a2 c ha).2 k, (b2 d hb').2 k, get_perm h hn]

theorem mul_perm {a a' b b' : Dims E} (h : List.Perm a a') (h' : List.Perm b b') (ha : (a.map Prod.fst).Nodup)
    (hb : (b.map Prod.fst).Nodup) : SameEntries (a.mul b) (a'.mul b') ∧ ∀ c, a.mul b = some c → (c.map Prod.fst).Nodup := by
  have ha' : (a'.map Prod.fst).Nodup := ((h.map Prod.fst).nodup_iff).1 ha
  have hb' : (b'.map Prod.fst).Nodup := ((h'.map Prod.fst).nodup_iff).1 hb
  obtain ⟨a1, a2⟩ := mul_at ha hb
  obtain ⟨b1, b2⟩ := mul_at ha' hb'
  have hat : ∀ k, mulAt a b k = mulAt a' b' k := fun k => by unfold mulAt; rw [get_perm h ha, get_perm h' hb]
  have hiff : a.mul b = none ↔ a'.mul b' = none := by rw [a1, b1]; simp only [hat]
  refine ⟨?_, fun c hc => (a2 c hc).1⟩
  cases hc : a.mul b with
  | none => rw [hiff.1 hc]; trivial
  | some c =>
    cases hd : a'.mul b' with
    | none => rw [hiff.2 hd] at hc; simp at hc
    | some d =>
      refine perm_of_get (a2 c hc).1 (b2 d hd).1 fun k => ?_
      have := (a2 c hc).2 k
      rw [hat, (b2 d hd).2 k] at this
      exact (Option.some.inj this).symm

end Dims

section
variable {E M : Type} [Exponent E] [MagOps E M]

/-! ### Two outcomes agree -/

theorem SameEntries.symm {a b : Option (Dims E)} (h : SameEntries a b) : SameEntries b a := by
  cases a <;> cases b <;> first | trivial | exact List.Perm.symm h
theorem SameEntries.trans {a b c : Option (Dims E)} (h : SameEntries a b) (h' : SameEntries b c) : SameEntries a c := by
  cases a <;> cases b <;> cases c <;> first | trivial | exact h.elim | exact h'.elim | exact List.Perm.trans h h'
theorem SameEntries.refl (a : Option (Dims E)) : SameEntries a a := by
  cases a
  · trivial
  · exact List.Perm.refl _

/-- Distinct keys, if there is a result. -/
def KeysOk (r : Option (Dims E)) : Prop := ∀ c, r = some c → (c.map Prod.fst).Nodup

theorem SameEntries.keysOk {a b : Option (Dims E)} (h : SameEntries a b) (ha : KeysOk a) : KeysOk b := by
  intro c hc
  subst hc
  cases a with
  | none => exact h.elim
  | some d => exact ((List.Perm.map Prod.fst h).nodup_iff).1 (ha d rfl)

theorem mulOutcome_agree {a a' b b' : Dims E} {r r' : Option (Dims E)} (h : List.Perm a a') (hb : List.Perm b b')
    (hn : (a.map Prod.fst).Nodup) (hnb : (b.map Prod.fst).Nodup) (h1 : MulOutcome a b r) (h2 : MulOutcome a' b' r') :
    SameEntries r r' ∧ KeysOk r := by
  obtain ⟨x, hx, h1⟩ := h1
  obtain ⟨y, hy, h2⟩ := h2
  have hxn : (x.map Prod.fst).Nodup := ((hx.map Prod.fst).nodup_iff).2 hnb
  obtain ⟨k1, k2⟩ := Dims.mul_perm h (hx.trans (hb.trans hy.symm)) hn hxn
  exact ⟨h1.symm.trans (k1.trans h2), h1.keysOk k2⟩

theorem dimsInv_cons (k : Str) (v : E) (m : Dims E) :
    Dims.inv ((k, v) :: m) = (Exponent.neg v).bind fun v' => (Dims.inv m).map fun m' => (k, v') :: m' := by
  simp only [Dims.inv]
  cases Exponent.neg v <;> cases Dims.inv m <;> rfl
theorem dimsPow_cons (p : E) (k : Str) (v : E) (m : Dims E) :
    Dims.pow p ((k, v) :: m) = (Exponent.mul v p).bind fun v' => (Dims.pow p m).map fun m' => (k, v') :: m' := by
  simp only [Dims.pow]
  cases Exponent.mul v p <;> cases Dims.pow p m <;> rfl

theorem invOutcome_agree {a a' : Dims E} {r r' : Option (Dims E)} (h : List.Perm a a') (hn : (a.map Prod.fst).Nodup)
    (h1 : InvOutcome a r) (h2 : InvOutcome a' r') : SameEntries r r' ∧ KeysOk r := by
  obtain ⟨x, hx, h1⟩ := h1
  obtain ⟨y, hy, h2⟩ := h2
  have hxn : (x.map Prod.fst).Nodup := ((hx.map Prod.fst).nodup_iff).2 hn
  obtain ⟨k1, k2⟩ := Dims.each_perm (f := Exponent.neg) (g := Dims.inv) rfl dimsInv_cons (hx.trans (h.trans hy.symm)) hxn
  exact ⟨h1.symm.trans (k1.trans h2), h1.keysOk k2⟩

theorem powOutcome_agree {a a' : Dims E} {p : E} {r r' : Option (Dims E)} (h : List.Perm a a') (hn : (a.map Prod.fst).Nodup)
    (h1 : PowOutcome a p r) (h2 : PowOutcome a' p r') : SameEntries r r' ∧ KeysOk r := by
  obtain ⟨x, hx, h1⟩ := h1
  obtain ⟨y, hy, h2⟩ := h2
  have hxn : (x.map Prod.fst).Nodup := ((hx.map Prod.fst).nodup_iff).2 hn
  obtain ⟨k1, k2⟩ := Dims.each_perm (f := fun v => Exponent.mul v p) (g := Dims.pow p) rfl (dimsPow_cons p) (hx.trans (h.trans hy.symm)) hxn
  exact ⟨h1.symm.trans (k1.trans h2), h1.keysOk k2⟩

theorem divOutcome_agree {a a' b b' : Dims E} {r r' : Option (Dims E)} (h : List.Perm a a') (hb : List.Perm b b')
    (hn : (a.map Prod.fst).Nodup) (hnb : (b.map Prod.fst).Nodup) (h1 : DivOutcome a b r) (h2 : DivOutcome a' b' r') :
    SameEntries r r' ∧ KeysOk r := by
  obtain ⟨i, hi, h1⟩ := h1
  obtain ⟨j, hj, h2⟩ := h2
  obtain ⟨k1, k2⟩ := invOutcome_agree hb hnb hi hj
  cases i with
  | none =>
    cases j with
    | none => simp only at h1 h2; subst h1; subst h2; exact ⟨trivial, by intro c hc; simp at hc⟩
    | some j => exact k1.elim
  | some i =>
    cases j with
    | none => exact k1.elim
    | some j => exact mulOutcome_agree h k1 hn (k2 i rfl) h1 h2

/-- The same value: the same entries, the same factor; the keys are distinct. -/
def SameDM (a b : DM E M) : Prop := List.Perm a.dims b.dims ∧ (a.dims.map Prod.fst).Nodup ∧ a.mag = b.mag

/-- Both panic, or both give the same value. -/
def SameOpt (a b : Option (DM E M)) : Prop :=
  match a, b with
  | none, none => True
  | some a, some b => SameDM a b
  | _, _ => False

theorem sameOpt_of {c c' : Option (Dims E)} {m m' : M} (h : SameEntries c c') (hk : KeysOk c) (hm : m = m') :
    SameOpt (c.map fun d => (⟨d, m⟩ : DM E M)) (c'.map fun d => ⟨d, m'⟩) := by
  cases c <;> cases c' <;> first | trivial | exact ⟨h, hk _ rfl, hm⟩

mutual
theorem Expr.outcome_agree {A : Type} (f f' : A → Option (DM E M)) (e0 : Expr A E) {e e' : Expr (DM E M) E} {r r' : Option (DM E M)}
    (hl : ∀ v ∈ e0.vals, SameOpt (f v) (f' v)) (he : e0.mapM f = some e) (he' : e0.mapM f' = some e') (h : e.Outcome r)
    (h' : e'.Outcome r') : SameOpt r r' := by
  match e0 with
  | .value x =>
    simp only [Expr.mapM, bindM_eq_some, pure_eq_some] at he he'
    obtain ⟨y, hy, rfl⟩ := he
    obtain ⟨y', hy', rfl⟩ := he'
    exact Factor.outcome_agree f f' x hl hy hy' h h'
  | .binary l o x =>
    simp only [Expr.mapM, bindM_eq_some, pure_eq_some] at he he'
    obtain ⟨l1, hl1, y, hy, rfl⟩ := he
    obtain ⟨l2, hl2, y', hy', rfl⟩ := he'
    obtain ⟨a, ha, h⟩ := h
    obtain ⟨a', ha', h'⟩ := h'
    have hla := Expr.outcome_agree f f' l (fun v hv => hl v (by simp [Expr.vals, hv])) hl1 hl2 ha ha'
    cases a with
    | none =>
      cases a' with
      | none => simp only at h h'; subst h; subst h'; trivial
      | some a' => exact hla.elim
    | some a =>
      cases a' with
      | none => exact hla.elim
      | some a' =>
        obtain ⟨b, hb, h⟩ := h
        obtain ⟨b', hb', h'⟩ := h'
        have hlb := Factor.outcome_agree f f' x (fun v hv => hl v (by simp [Expr.vals, hv])) hy hy' hb hb'
        cases b with
        | none =>
          cases b' with
          | none => simp only at h h'; subst h; subst h'; trivial
          | some b' => exact hlb.elim
        | some b =>
          cases b' with
          | none => exact hlb.elim
          | some b' =>
            obtain ⟨pa, na, ma⟩ := hla
            obtain ⟨pb, nb, mb⟩ := hlb
            cases o with
            | mul =>
              obtain ⟨c, hc, rfl⟩ := h
              obtain ⟨c', hc', rfl⟩ := h'
              obtain ⟨k1, k2⟩ := mulOutcome_agree pa pb na nb hc hc'
              exact sameOpt_of k1 k2 (by rw [ma, mb])
            | div =>
              obtain ⟨c, hc, rfl⟩ := h
              obtain ⟨c', hc', rfl⟩ := h'
              obtain ⟨k1, k2⟩ := divOutcome_agree pa pb na nb hc hc'
              exact sameOpt_of k1 k2 (by rw [ma, mb])
theorem Factor.outcome_agree {A : Type} (f f' : A → Option (DM E M)) (e0 : Factor A E) {e e' : Factor (DM E M) E}
    {r r' : Option (DM E M)} (hl : ∀ v ∈ e0.vals, SameOpt (f v) (f' v)) (he : e0.mapM f = some e) (he' : e0.mapM f' = some e')
    (h : e.Outcome r) (h' : e'.Outcome r') : SameOpt r r' := by
  match e0 with
  | .value x =>
    simp only [Factor.mapM, bindM_eq_some, pure_eq_some] at he he'
    obtain ⟨y, hy, rfl⟩ := he
    obtain ⟨y', hy', rfl⟩ := he'
    have := hl x (by simp [Factor.vals])
    rw [hy, hy'] at this
    simp only [Factor.Outcome] at h h'
    subst h; subst h'
    exact this
  | .power x p =>
    simp only [Factor.mapM, bindM_eq_some, pure_eq_some] at he he'
    obtain ⟨y, hy, rfl⟩ := he
    obtain ⟨y', hy', rfl⟩ := he'
    have := hl x (by simp [Factor.vals])
    rw [hy, hy'] at this
    obtain ⟨pa, na, ma⟩ := this
    obtain ⟨c, hc, rfl⟩ := h
    obtain ⟨c', hc', rfl⟩ := h'
    obtain ⟨k1, k2⟩ := powOutcome_agree pa na hc hc'
    exact sameOpt_of k1 k2 (by rw [ma])
  | .paren x =>
    simp only [Factor.mapM, bindM_eq_some, pure_eq_some] at he he'
    obtain ⟨y, hy, rfl⟩ := he
    obtain ⟨y', hy', rfl⟩ := he'
    exact Expr.outcome_agree f f' x hl hy hy' h h'
end

mutual
theorem Expr.mapM_none_congr {A B : Type} {E : Type} (f f' : A → Option B) (e : Expr A E) (hl : ∀ v ∈ e.vals, f v = none ↔ f' v = none) :
    e.mapM f = none ↔ e.mapM f' = none := by
  match e with
  | .value x =>
    have := Factor.mapM_none_congr f f' x hl
    simp only [Expr.mapM]
    cases h1 : x.mapM f <;> cases h2 : x.mapM f' <;> simp_all
  | .binary l o x =>
    have h1 := Factor.mapM_none_congr f f' x (fun v hv => hl v (by simp [Expr.vals, hv]))
    have h2 := Expr.mapM_none_congr f f' l (fun v hv => hl v (by simp [Expr.vals, hv]))
    simp only [Expr.mapM]
    cases h1 : x.mapM f <;> cases h2 : x.mapM f' <;> cases h3 : l.mapM f <;> cases h4 : l.mapM f' <;> simp_all
theorem Factor.mapM_none_congr {A B : Type} {E : Type} (f f' : A → Option B) (e : Factor A E) (hl : ∀ v ∈ e.vals, f v = none ↔ f' v = none) :
    e.mapM f = none ↔ e.mapM f' = none := by
  match e with
  | .value x =>
    have := hl x (by simp [Factor.vals])
    simp only [Factor.mapM]
    cases h1 : f x <;> cases h2 : f' x <;> simp_all
  | .power x p =>
    have := hl x (by simp [Factor.vals])
    simp only [Factor.mapM]
    cases h1 : f x <;> cases h2 : f' x <;> simp_all
  | .paren x =>
    have := Expr.mapM_none_congr f f' x hl
    simp only [Factor.mapM]
    cases h1 : x.mapM f <;> cases h2 : x.mapM f' <;> simp_all
end

/-- The literal dimensions inside an item have distinct keys. -/
def Item.ConcreteOk (i : Item E M) : Prop := ∀ c, Atom.concrete c ∈ i.expr.vals → (c.dims.map Prod.fst).Nodup

/-- The same resolved items. -/
def SameRes (a b : BMap (ResolvedItem E M)) : Prop :=
  List.Forall₂ (fun p q => p.1 = q.1 ∧ p.2.item = q.2.item ∧ SameDM p.2.dimensions q.2.dimensions) a b

theorem SameRes.get {a b : BMap (ResolvedItem E M)} (h : SameRes a b) (k : Str) :
    (a.get k = none ∧ b.get k = none) ∨
      ∃ r s, a.get k = some r ∧ b.get k = some s ∧ r.item = s.item ∧ SameDM r.dimensions s.dimensions := by
  induction h with
  | nil => exact .inl ⟨rfl, rfl⟩
  | @cons p q a b hpq _ ih =>
    obtain ⟨k1, r⟩ := p
    obtain ⟨k2, s⟩ := q
    obtain ⟨e1, e2, e3⟩ := hpq
    simp only at e1 e2 e3
    subst e1
    simp only [BMap.get]
    by_cases hk : k1 = k
    · simp only [if_pos hk]; exact .inr ⟨r, s, rfl, rfl, e2, e3⟩
    · simp only [if_neg hk]; exact ih

theorem SameRes.insert {a b : BMap (ResolvedItem E M)} (h : SameRes a b) (k : Str) {r s : ResolvedItem E M} (hi : r.item = s.item)
    (hd : SameDM r.dimensions s.dimensions) : SameRes (a.insert k r) (b.insert k s) := by
  induction h with
  | nil => exact .cons ⟨rfl, hi, hd⟩ .nil
  | @cons p q a b hpq hab ih =>
    obtain ⟨k1, r1⟩ := p
    obtain ⟨k2, s1⟩ := q
    obtain ⟨e1, e2, e3⟩ := hpq
    simp only at e1 e2 e3
    subst e1
    simp only [BMap.insert]
    split
    · exact .cons ⟨rfl, hi, hd⟩ hab
    · split
      · exact .cons ⟨rfl, hi, hd⟩ (.cons ⟨rfl, e2, e3⟩ hab)
      · exact .cons ⟨rfl, e2, e3⟩ ih

theorem SameRes.isResolvable {a b : BMap (ResolvedItem E M)} (h : SameRes a b) (i : Item E M) :
    isResolvable a i = isResolvable b i := by
  unfold Diman.isResolvable
  congr 1
  funext x
  cases x with
  | concrete c => rfl
  | other x =>
    simp only [BMap.contains]
    rcases h.get x with ⟨h1, h2⟩ | ⟨r, s, h1, h2, _⟩ <;> rw [h1, h2] <;> rfl

theorem SameRes.takeResolvable {a b : BMap (ResolvedItem E M)} (h : SameRes a b) (l : List (Item E M)) :
    takeResolvable a l = takeResolvable b l := by
  induction l with
  | nil => rfl
  | cons x l ih => simp only [Diman.takeResolvable, h.isResolvable, ih]

theorem dimensionsOutcome_agree {a b : BMap (ResolvedItem E M)} (h : SameRes a b) {i : Item E M} (hi : i.ConcreteOk)
    {r r' : Option (DM E M)} (h1 : DimensionsOutcome a i r) (h2 : DimensionsOutcome b i r') : SameOpt r r' := by
  unfold DimensionsOutcome at h1 h2
  have hl : ∀ v ∈ i.expr.vals, SameOpt (leafOf a v) (leafOf b v) := by
    intro v hv
    cases v with
    | concrete c => exact ⟨List.Perm.refl _, hi c hv, rfl⟩
    | other x =>
      simp only [leafOf]
      rcases h.get x with ⟨h1, h2⟩ | ⟨r, s, h1, h2, _, h3⟩
      · rw [h1, h2]; trivial
      · rw [h1, h2]; exact h3
  have h1 : match i.expr.mapM (leafOf a) with
    | none => r = none
    | some e => e.Outcome r := h1
  have h2 : match i.expr.mapM (leafOf b) with
    | none => r' = none
    | some e => e.Outcome r' := h2
  have hn := Expr.mapM_none_congr (leafOf a) (leafOf b) i.expr (fun v hv => by
    have := hl v hv
    cases ha : leafOf a v <;> cases hb : leafOf b v <;> rw [ha, hb] at this <;> first | exact this.elim | simp)
  cases ha : i.expr.mapM (leafOf a) with
  | none =>
    rw [ha] at h1; rw [hn.1 ha] at h2
    simp only at h1 h2
    subst h1; subst h2; trivial
  | some e =>
    cases hb : i.expr.mapM (leafOf b) with
    | none => rw [hn.2 hb] at ha; simp at ha
    | some e' =>
      rw [ha] at h1; rw [hb] at h2
      exact Expr.outcome_agree _ _ _ hl ha hb h1 h2

/-- Both panic, or both give the same results and errors. -/
def SameLoop : Option (BMap (ResolvedItem E M) × List Diag) → Option (BMap (ResolvedItem E M) × List Diag) → Prop
  | none, none => True
  | some (r, d), some (r', d') => SameRes r r' ∧ d = d'
  | _, _ => False

theorem loopOutcome_agree {l : List (Item E M)} (hl : ∀ i ∈ l, i.ConcreteOk) {a b : BMap (ResolvedItem E M)} (h : SameRes a b)
    {o o' : Option (BMap (ResolvedItem E M) × List Diag)} (h1 : LoopOutcome l a o) (h2 : LoopOutcome l b o') : SameLoop o o' := by
  induction h1 generalizing b o' with
  | done res =>
    cases h2 with
    | done => exact ⟨h, rfl⟩
    | stuck _ _ hl _ => exact absurd rfl hl
    | panic ht _ => simp [takeResolvable] at ht
    | step ht _ _ => simp [takeResolvable] at ht
  | stuck l res hne ht =>
    rw [h.takeResolvable] at ht
    cases h2 with
    | done => exact absurd rfl hne
    | stuck _ _ _ _ => exact ⟨h, rfl⟩
    | panic ht' _ => rw [ht] at ht'; simp at ht'
    | step ht' _ _ => rw [ht] at ht'; simp at ht'
  | @panic l res x rest ht hd =>
    rw [h.takeResolvable] at ht
    have hx : x ∈ l := by obtain ⟨_, l1, l2, e, _⟩ := takeResolvable_some ht; simp [e]
    cases h2 with
    | done => simp [takeResolvable] at ht
    | stuck _ _ _ ht' => rw [ht] at ht'; simp at ht'
    | panic ht' _ => trivial
    | step ht' hd' _ =>
      rw [ht] at ht'
      simp only [Option.some.injEq, Prod.mk.injEq] at ht'
      obtain ⟨rfl, rfl⟩ := ht'
      exact (dimensionsOutcome_agree h (hl _ hx) hd hd').elim
  | @step l res x rest d o ht hd hr ih =>
    rw [h.takeResolvable] at ht
    have hx := takeResolvable_some ht
    have hxl : x ∈ l := by obtain ⟨_, l1, l2, e, _⟩ := hx; simp [e]
    have hrest : ∀ i ∈ rest, i ∈ l := by
      obtain ⟨_, l1, l2, e, e2⟩ := hx
      intro i hi
      rw [e]
      rw [e2] at hi
      simp only [List.mem_append, List.mem_cons] at hi ⊢
      tauto
    cases h2 with
    | done => simp [takeResolvable] at ht
    | stuck _ _ _ ht' => rw [ht] at ht'; simp at ht'
    | panic ht' hd' =>
      rw [ht] at ht'
      simp only [Option.some.injEq, Prod.mk.injEq] at ht'
      obtain ⟨rfl, rfl⟩ := ht'
      exact (dimensionsOutcome_agree h (hl _ hxl) hd hd').elim
    | step ht' hd' hr' =>
      rw [ht] at ht'
      simp only [Option.some.injEq, Prod.mk.injEq] at ht'
      obtain ⟨rfl, rfl⟩ := ht'
      have hs := dimensionsOutcome_agree h (hl _ hxl) hd hd'
      rename_i d'
      exact ih (fun i hi => hl i (hrest i hi)) (h.insert (r := ⟨x, d⟩) (s := ⟨x, d'⟩) x.ident rfl hs) hr'

/-! ### The rest of the resolver -/

theorem Dims.eq_perm {a a' b b' : Dims E} (ha : List.Perm a a') (hb : List.Perm b b') (hn : (b.map Prod.fst).Nodup) :
    a.eq b = a'.eq b' := by
  unfold Dims.eq
  have : ∀ kv : Str × E, (match Dims.get b kv.1 with | some v => decide (kv.2 = v) | none => false) =
      (match Dims.get b' kv.1 with | some v => decide (kv.2 = v) | none => false) := by
    intro kv; rw [Dims.get_perm hb hn]
  refine (List.Perm.all_eq ha).trans ?_
  congr 1
  funext kv
  exact this kv

theorem SameRes.checkAnnotations {a b : BMap (ResolvedItem E M)} (h : SameRes a b) : checkAnnotations a = checkAnnotations b := by
  have hg := h.get
  have hf : ∀ f g : Str × ResolvedItem E M → List Diag,
      (∀ p q, (p.1 = q.1 ∧ p.2.item = q.2.item ∧ SameDM p.2.dimensions q.2.dimensions) → f p = g q) →
      List.flatMap f a = List.flatMap g b := by
    intro f g hfg
    clear hg
    induction h with
    | nil => rfl
    | cons hpq _ ih => simp only [List.flatMap_cons, hfg _ _ hpq, ih]
  unfold Diman.checkAnnotations
  apply hf
  rintro ⟨k, ⟨i, d⟩⟩ ⟨k', ⟨i', d'⟩⟩ ⟨_, hi, hd⟩
  simp only at hi hd
  subst hi
  simp only
  cases i.annotation with
  | none => rfl
  | some x =>
    simp only
    rcases hg x with ⟨h1, h2⟩ | ⟨r, s, h1, h2, h3, h4⟩
    · rw [h1, h2]
    · rw [h1, h2]
      simp only [h3, Dims.eq_perm h4.1 hd.1 hd.2.1]

theorem forall₂_filter {α β : Type} {R : α → β → Prop} {P : α → Bool} {Q : β → Bool} (hPQ : ∀ a b, R a b → P a = Q b) {l : List α}
    {m : List β} (h : List.Forall₂ R l m) : List.Forall₂ R (l.filter P) (m.filter Q) := by
  induction h with
  | nil => exact .nil
  | @cons x y l m hab _ ih =>
    simp only [List.filter_cons, hPQ x y hab]
    split
    · exact .cons hab ih
    · exact ih

theorem forall₂_mapM {α β γ δ : Type} {R : α → β → Prop} {S : γ → δ → Prop} {f : α → Option γ} {g : β → Option δ}
    (hfg : ∀ a b, R a b → (f a = none ↔ g b = none) ∧ ∀ c d, f a = some c → g b = some d → S c d) {l : List α} {m : List β}
    (h : List.Forall₂ R l m) : (l.mapM f = none ↔ m.mapM g = none) ∧
      ∀ c d, l.mapM f = some c → m.mapM g = some d → List.Forall₂ S c d := by
  induction h with
  | nil => simp
  | @cons a b l m hab _ ih =>
    obtain ⟨k1, k2⟩ := hfg a b hab
    obtain ⟨i1, i2⟩ := ih
    simp only [List.mapM_cons]
    cases h1 : f a with
    | none => simp [k1.1 h1]
    | some c =>
      cases h2 : g b with
      | none => rw [k1.2 h2] at h1; simp at h1
      | some d =>
        cases h3 : l.mapM f with
        | none => simp [i1.1 h3]
        | some cs =>
          cases h4 : m.mapM g with
          | none => rw [i1.2 h4] at h3; simp at h3
          | some ds =>
            refine ⟨by simp, ?_⟩
            intro c' d' hc hd
            simp at hc hd
            subst hc; subst hd
            exact .cons (k2 c d h1 h2) (i2 cs ds h3 h4)

theorem SameRes.getDimensions {a b : BMap (ResolvedItem E M)} (h : SameRes a b) {x y : List (DimensionDef E)}
    (hx : getDimensions a = some x) (hy : getDimensions b = some y) :
    List.Forall₂ (fun x y => x.name = y.name ∧ List.Perm x.dims y.dims) x y := by
  unfold Diman.getDimensions at hx hy
  refine (forall₂_mapM ?_ (forall₂_filter ?_ h)).2 _ _ hx hy
  · rintro ⟨k, ⟨i, d⟩⟩ ⟨k', ⟨i', d'⟩⟩ ⟨_, hi, hd⟩
    simp only at hi hd
    subst hi
    obtain ⟨e, t⟩ := i
    cases t <;> simp
    exact hd.1
  · rintro ⟨k, ⟨i, d⟩⟩ ⟨k', ⟨i', d'⟩⟩ ⟨_, hi, _⟩
    simp only at hi
    subst hi; rfl

theorem SameRes.getUnits {a b : BMap (ResolvedItem E M)} (h : SameRes a b) {x y : List (UnitDef E M)}
    (hx : getUnits a = some x) (hy : getUnits b = some y) :
    List.Forall₂ (fun x y => x.name = y.name ∧ List.Perm x.dims y.dims ∧ x.mag = y.mag ∧ x.symbol = y.symbol ∧
      x.isBase = y.isBase) x y := by
  unfold Diman.getUnits at hx hy
  refine (forall₂_mapM ?_ (forall₂_filter ?_ h)).2 _ _ hx hy
  · rintro ⟨k, ⟨i, d⟩⟩ ⟨k', ⟨i', d'⟩⟩ ⟨_, hi, hd⟩
    simp only at hi hd
    subst hi
    obtain ⟨e, t⟩ := i
    cases t <;> simp
    exact ⟨hd.1, hd.2.2⟩
  · rintro ⟨k, ⟨i, d⟩⟩ ⟨k', ⟨i', d'⟩⟩ ⟨_, hi, _⟩
    simp only at hi
    subst hi; rfl

theorem SameRes.getConstants {a b : BMap (ResolvedItem E M)} (h : SameRes a b) {x y : List (ConstantDef E M)}
    (hx : getConstants a = some x) (hy : getConstants b = some y) :
    List.Forall₂ (fun x y => x.name = y.name ∧ List.Perm x.dims y.dims ∧ x.mag = y.mag) x y := by
  unfold Diman.getConstants at hx hy
  refine (forall₂_mapM ?_ (forall₂_filter ?_ h)).2 _ _ hx hy
  · rintro ⟨k, ⟨i, d⟩⟩ ⟨k', ⟨i', d'⟩⟩ ⟨_, hi, hd⟩
    simp only at hi hd
    subst hi
    obtain ⟨e, t⟩ := i
    cases t <;> simp
    exact ⟨hd.1, hd.2.2⟩
  · rintro ⟨k, ⟨i, d⟩⟩ ⟨k', ⟨i', d'⟩⟩ ⟨_, hi, _⟩
    simp only at hi
    subst hi; rfl

theorem checkBaseSymbols_same {x y : List (UnitDef E M)}
    (h : List.Forall₂ (fun x y => x.name = y.name ∧ List.Perm x.dims y.dims ∧ x.mag = y.mag ∧ x.symbol = y.symbol ∧
      x.isBase = y.isBase) x y) : checkBaseSymbols x = checkBaseSymbols y := by
  unfold checkBaseSymbols
  induction h with
  | nil => rfl
  | cons hab _ ih =>
    obtain ⟨h1, _, _, h2, h3⟩ := hab
    rw [List.filterMap_cons, List.filterMap_cons, ih, h1, h2, h3]

theorem Diag.Same.refl (a : Diag) : Diag.Same a a := .inl rfl

theorem forall₂_same_refl (l : List Diag) : List.Forall₂ Diag.Same l l := by
  induction l with
  | nil => exact .nil
  | cons a l ih => exact .cons (.inl rfl) ih

theorem multiplyDefinedOutcome_agree {l : List (Item E M)} {d d' : List Diag} (h : MultiplyDefinedOutcome l d)
    (h' : MultiplyDefinedOutcome l d') : List.Forall₂ Diag.Same d d' := by
  unfold MultiplyDefinedOutcome at h h'
  split at h
  · rename_i groups hg
    rw [hg] at h'
    obtain ⟨g, p, rfl⟩ := h
    obtain ⟨g', p', rfl⟩ := h'
    exact .cons (.inr ⟨g, g', rfl, rfl, p.trans p'.symm⟩) .nil
  · rename_i o hno
    split at h'
    · rename_i groups hg; exact absurd hg (hno groups)
    · subst h; subst h'; exact forall₂_same_refl _

theorem allItems_concreteOk (u : UnresolvedDefs E M) : ∀ i ∈ allItems u, i.ConcreteOk := by
  intro i hi c hc
  rcases mem_allItems.1 hi with ⟨d, _, rfl⟩ | ⟨d, _, rfl⟩ | ⟨d, _, rfl⟩
  · obtain ⟨n, r⟩ := d
    cases r with
    | base b => simp [Item.ofDimension, Expr.vals, Factor.vals] at hc; subst hc; simp [DM.dimensions]
    | expression e =>
      simp only [Item.ofDimension, Expr.vals_map, List.mem_map] at hc
      obtain ⟨a, _, ha⟩ := hc
      cases a <;> simp [Atom.mapConcrete] at ha
      subst ha; simp [DM.dimensions]
  · obtain ⟨n, s, an, r, g⟩ := d
    cases r with
    | base b => simp [Item.ofUnit, Expr.vals, Factor.vals] at hc
    | expression e =>
      simp only [Item.ofUnit, Expr.vals_map, List.mem_map] at hc
      obtain ⟨a, _, ha⟩ := hc
      cases a <;> simp [Atom.mapConcrete] at ha
      subst ha; simp [DM.magnitude]
  · simp only [Item.ofConstant, Expr.vals_map, List.mem_map] at hc
    obtain ⟨a, _, ha⟩ := hc
    cases a <;> simp [Atom.mapConcrete] at ha
    subst ha; simp [DM.magnitude]

theorem itemsOutcome_agree {l : List (Item E M)} (hl : ∀ i ∈ l, i.ConcreteOk) {o o' : Option (BMap (ResolvedItem E M) × List Diag)}
    (h1 : ItemsOutcome l o) (h2 : ItemsOutcome l o') :
    match o, o' with
    | none, none => True
    | some (r, d), some (r', d') => SameRes r r' ∧ List.Forall₂ Diag.Same d d'
    | _, _ => False := by
  unfold ItemsOutcome at h1 h2
  simp only at h1 h2
  obtain ⟨e, he, p, hp, rfl⟩ := h1
  obtain ⟨e', he', p', hp', rfl⟩ := h2
  have hsub : ∀ i ∈ filterAutogenerated (filterAutogenerated (filterAutogenerated (filterUndefined l).1)), i ∈ l := by
    intro i hi
    unfold filterAutogenerated filterUndefined at hi
    simp only [List.mem_filter] at hi
    exact hi.1.1.1.1
  have := loopOutcome_agree (fun i hi => hl i (hsub i hi)) (a := []) (b := []) .nil hp hp'
  cases p with
  | none =>
    cases p' with
    | none => trivial
    | some q => exact this.elim
  | some q =>
    cases p' with
    | none => exact this.elim
    | some q' =>
      obtain ⟨r, d⟩ := q
      obtain ⟨r', d'⟩ := q'
      obtain ⟨hr, hd⟩ := this
      simp only [Option.map_some]
      refine ⟨hr, ?_⟩
      rw [hd, hr.checkAnnotations]
      refine List.rel_append ?_ (forall₂_same_refl _)
      refine List.rel_append ?_ (forall₂_same_refl _)
      refine List.rel_append ?_ (forall₂_same_refl _)
      exact List.rel_append (forall₂_same_refl _) (multiplyDefinedOutcome_agree he he')

/-- **C40.** Whatever the iteration orders of the hash maps: any two possible outcomes for the same statements are the same. Both are
panics, or both give the same errors (up to their order) and the same definitions: the same names, conversion factors, symbols and
flags, in the same order, and dimensions with the same exponents. -/
theorem C40_order_irrelevant (factor : Prefix → M) (t : UnresolvedTemplates E M) (o o' : Option (Defs E M × List Diag))
    (h : MacroOutcome factor t o) (h' : MacroOutcome factor t o') : SameOutcome o o' := by
  unfold MacroOutcome ResolveOutcome at h h'
  simp only at h h'
  obtain ⟨e4, he4, p, hp, rfl⟩ := h
  obtain ⟨e4', he4', p', hp', rfl⟩ := h'
  have := itemsOutcome_agree (allItems_concreteOk _) hp hp'
  cases p with
  | none =>
    cases p' with
    | none => trivial
    | some q => exact this.elim
  | some q =>
    cases p' with
    | none => exact this.elim
    | some q' =>
      obtain ⟨r, d⟩ := q
      obtain ⟨r', d'⟩ := q'
      obtain ⟨hr, hd⟩ := this
      obtain ⟨x1, hx1⟩ := Option.isSome_iff_exists.1 (getDimensions_isSome r)
      obtain ⟨x2, hx2⟩ := Option.isSome_iff_exists.1 (getUnits_isSome r)
      obtain ⟨x3, hx3⟩ := Option.isSome_iff_exists.1 (getConstants_isSome r)
      obtain ⟨y1, hy1⟩ := Option.isSome_iff_exists.1 (getDimensions_isSome r')
      obtain ⟨y2, hy2⟩ := Option.isSome_iff_exists.1 (getUnits_isSome r')
      obtain ⟨y3, hy3⟩ := Option.isSome_iff_exists.1 (getConstants_isSome r')
      simp only [Option.bind_some, Option.bind_eq_bind, hx1, hx2, hx3, hy1, hy2, hy3, Option.pure_def]
      have hu := hr.getUnits hx2 hy2
      refine ⟨⟨rfl, rfl, rfl, hr.getDimensions hx1 hy1, hu, hr.getConstants hx3 hy3⟩, ?_⟩
      rw [checkBaseSymbols_same hu]
      generalize (getSingleIdent _ _ _).2 ++ (getSingleIdent _ _ _).2 ++ checkBaseUnits _ _ _ = e0
      refine ⟨e0 ++ e4' ++ d ++ checkBaseSymbols y2, ?_, ?_⟩
      · refine List.Perm.append_right _ (List.Perm.append_right _ (List.Perm.append_left _ (he4.trans he4'.symm)))
      · refine List.rel_append ?_ (forall₂_same_refl _)
        refine List.rel_append (forall₂_same_refl _) hd

/-! ### Consequences for the generated types -/

end

section
variable {E M : Type} [Exponent E] [MagOps E M] [FieldOps E]

/-- **C40, the generated type.** The `Dimension` value written for a definition (as a struct expression, whose field order is the
hash map's) does not depend on the iteration order either. -/
theorem C40_dimension_value (bd : List Str) (d d' : Dims E) (h : List.Perm d d') : dimensionExpr bd d = dimensionExpr bd d' := by
  unfold dimensionExpr
  rw [h.length_eq]
  congr 1
  unfold structExpr
  have hm : ∀ k, k ∈ d.map Prod.fst ↔ k ∈ d'.map Prod.fst := fun k => (h.map Prod.fst).mem_iff
  have hn : (d.map Prod.fst).Nodup ↔ (d'.map Prod.fst).Nodup := (h.map Prod.fst).nodup_iff
  by_cases hnd : (d.map Prod.fst).Nodup
  · have hf : ∀ k, d.find? (fun kv => decide (kv.1 = k)) = d'.find? (fun kv => decide (kv.1 = k)) := by
      intro k
      cases h1 : d.find? (fun kv => decide (kv.1 = k)) with
      | none =>
        symm
        rw [List.find?_eq_none] at h1 ⊢
        exact fun x hx => h1 x (h.mem_iff.2 hx)
      | some p =>
        have hp := List.mem_of_find?_eq_some h1
        have hpk := List.find?_some h1
        cases h2 : d'.find? (fun kv => decide (kv.1 = k)) with
        | none => rw [List.find?_eq_none] at h2; exact absurd hpk (h2 p (h.mem_iff.1 hp))
        | some q =>
          have hq := h.mem_iff.2 (List.mem_of_find?_eq_some h2)
          have hqk := List.find?_some h2
          simp only [decide_eq_true_eq] at hpk hqk
          have e1 := Dims.get_of_mem (k := p.1) (v := p.2) hnd hp
          have e2 := Dims.get_of_mem (k := q.1) (v := q.2) hnd hq
          rw [hpk] at e1
          rw [hqk, e1] at e2
          have e3 := Option.some.inj e2
          congr 1
          exact Prod.ext (hpk.trans hqk.symm) e3
    simp only [hm, hn, hf]
  · simp only [hnd, not_false_eq_true, true_or, if_true]
    rw [if_pos (.inl (fun hh => hnd (hn.2 hh)))]

/-! ### The model is one of the possible outcomes -/

mutual
theorem Expr.outcome_eval (e : Expr (DM E M) E) : e.Outcome e.eval := by
  match e with
  | .value f => exact Factor.outcome_eval f
  | .binary l o f =>
    refine ⟨l.eval, Expr.outcome_eval l, ?_⟩
    cases hl : l.eval with
    | none => simp [Expr.eval, hl]
    | some a =>
      refine ⟨f.eval, Factor.outcome_eval f, ?_⟩
      cases hf : f.eval with
      | none => simp [Expr.eval, hl, hf]
      | some b =>
        cases o with
        | mul =>
          refine ⟨a.dims.mul b.dims, ⟨b.dims, List.Perm.refl _, SameEntries.refl _⟩, ?_⟩
          simp only [Expr.eval, hl, hf]
          show (do return (⟨← a.dims.mul b.dims, MagOps.mul E a.mag b.mag⟩ : DM E M)) = _
          cases a.dims.mul b.dims <;> rfl
        | div =>
          refine ⟨a.dims.div b.dims, ⟨b.dims.inv, ⟨b.dims, List.Perm.refl _, SameEntries.refl _⟩, ?_⟩, ?_⟩
          · cases hi : b.dims.inv with
            | none => simp [Dims.div, hi]
            | some c => exact ⟨c, List.Perm.refl _, by simp only [Dims.div, hi]; exact SameEntries.refl _⟩
          · simp only [Expr.eval, hl, hf]
            show (do return (⟨← a.dims.div b.dims, MagOps.div E a.mag b.mag⟩ : DM E M)) = _
            cases a.dims.div b.dims <;> rfl
theorem Factor.outcome_eval (e : Factor (DM E M) E) : e.Outcome e.eval := by
  match e with
  | .value v => rfl
  | .power v p =>
    refine ⟨v.dims.pow p, ⟨v.dims, List.Perm.refl _, SameEntries.refl _⟩, ?_⟩
    show (do return (⟨← v.dims.pow p, MagOps.pow v.mag p⟩ : DM E M)) = _
    cases v.dims.pow p <;> rfl
  | .paren e => exact Expr.outcome_eval e
end

theorem dimensionsOutcome_model (res : BMap (ResolvedItem E M)) (i : Item E M) : DimensionsOutcome res i (resolveDimensions res i) := by
  rw [resolveDimensions_def]
  show match i.expr.mapM (leafOf res) with
    | none => (i.expr.mapM (leafOf res)).bind Expr.eval = none
    | some e => e.Outcome ((i.expr.mapM (leafOf res)).bind Expr.eval)
  cases h : i.expr.mapM (leafOf res) with
  | none => rfl
  | some e => exact Expr.outcome_eval e

theorem loopOutcome_model (l : List (Item E M)) (res : BMap (ResolvedItem E M)) : LoopOutcome l res (resolveLoop l res) := by
  obtain ⟨n, hn⟩ : ∃ n, l.length = n := ⟨_, rfl⟩
  induction n generalizing l res with
  | zero =>
    have : l = [] := List.eq_nil_of_length_eq_zero hn
    subst this
    rw [resolveLoop]; exact .done res
  | succ n ih =>
    rw [resolveLoop]
    have hl : l ≠ [] := by rintro rfl; simp at hn
    rw [if_neg (by simpa using hl)]
    split
    · rename_i x rest ht
      have hd := dimensionsOutcome_model res x
      cases hr : resolveDimensions res x with
      | none => rw [hr] at hd; exact .panic ht hd
      | some d =>
        rw [hr] at hd
        exact .step ht hd (ih _ _ (by have := takeResolvable_length ht; omega))
    · rename_i ht; exact .stuck l res hl ht

/-- The model of `Model/Resolve.lean` (insertion order) is one of the possible outcomes; so C40 speaks about it, and there is always an
outcome. -/
theorem C40_model_is_an_outcome (factor : Prefix → M) (t : UnresolvedTemplates E M) : MacroOutcome factor t (runUnitSystem factor t) := by
  unfold MacroOutcome runUnitSystem
  set u := UnresolvedTemplates.expand (MagOps.one E) factor t
  unfold ResolveOutcome
  refine ⟨checkSymbols u.units, List.Perm.refl _, resolveItems (allItems u), ?_, ?_⟩
  · unfold ItemsOutcome resolveItems
    simp only
    refine ⟨multiplyDefined (filterAutogenerated (filterUndefined (allItems u)).1), ?_, _, loopOutcome_model _ _, ?_⟩
    · unfold MultiplyDefinedOutcome
      split
      · rename_i g hg; exact ⟨g, List.Perm.refl _, hg⟩
      · rfl
    · cases resolveLoop (filterAutogenerated (filterAutogenerated (filterAutogenerated (filterUndefined (allItems u)).1))) [] <;> rfl
  · rfl

end

/-! ### Non-vacuity -/
section
attribute [local instance] Sample.exactMag

/-- A product with its entries inserted in the other order is a possible outcome, different as a list of entries. -/
example : MulOutcome ([] : Dims Int) [(str!"length", 1), (str!"time", -1)] (some [(str!"time", -1), (str!"length", 1)]) :=
  ⟨[(str!"time", -1), (str!"length", 1)], by decide, by simp [SameEntries, Dims.mul, Dims.addEntry]⟩

/-- The sample system has an outcome without errors. -/
example : ∃ d, MacroOutcome Sample.exactFactor Sample.sample (some (d, [])) := by
  have := C40_model_is_an_outcome Sample.exactFactor Sample.sample
  obtain ⟨d, hd⟩ := Sample.sample_accepted
  exact ⟨d, by rw [← hd]; exact this⟩
end
end Diman
