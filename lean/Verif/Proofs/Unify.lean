import Verif.Spec.Coherence
/-!
# When two headers cannot apply to the same type
A unification procedure on headers; that it refuses only what has no common instance is proved here.
-/
namespace Diman
variable {V : Type} [DecidableEq V]

namespace TyPat
def occurs (v : V) : TyPat V → Bool
  | .var w => decide (v = w)
  | .head _ | .none => false
  | .app f x => f.occurs v || x.occurs v
  | .ref _ t => t.occurs v
def mentionsLocal : TyPat V → Bool
  | .head (.loc _ _) => true
  | .var _ | .head _ | .none => false
  | .app f x => f.mentionsLocal || x.mentionsLocal
  | .ref _ t => t.mentionsLocal
def subst (v : V) (s : TyPat V) : TyPat V → TyPat V
  | .var w => if v = w then s else .var w
  | .head h => .head h
  | .none => .none
  | .app f x => .app (subst v s f) (subst v s x)
  | .ref m t => .ref m (subst v s t)
def map {W : Type} (f : V → W) : TyPat V → TyPat W
  | .var v => .var (f v)
  | .head h => .head h
  | .none => .none
  | .app g x => .app (g.map f) (x.map f)
  | .ref m t => .ref m (t.map f)
end TyPat

/-- `false` if the equations have no solution in which the variables in `st` stand for foreign types. -/
def unify (st : V → Bool) : Nat → List (TyPat V × TyPat V) → Bool
  | 0, _ => true
  | _ + 1, [] => true
  | k + 1, (a, b) :: es =>
    match a, b with
    | .var v, t =>
      if t = .var v then unify st k es
      else if t.occurs v then false
      else if st v && t.mentionsLocal then false
      else unify st k (es.map fun e => (TyPat.subst v t e.1, TyPat.subst v t e.2))
    | t, .var v =>
      if t.occurs v then false
      else if st v && t.mentionsLocal then false
      else unify st k (es.map fun e => (TyPat.subst v t e.1, TyPat.subst v t e.2))
    | .head h, .head h' => if h = h' then unify st k es else false
    | .none, .none => unify st k es
    | .app f x, .app g y => unify st k ((f, g) :: (x, y) :: es)
    | .ref m t, .ref m' t' => if m = m' then unify st k ((t, t') :: es) else false
    | _, _ => false

section
variable {E : Type} [FieldOps E] {n : Nat} {σ : V → RTy E}

/-- The size of a type. -/
def RTy.size : RTy E → Nat
  | .app f x => f.size + x.size + 1
  | .ref _ t => t.size + 1
  | _ => 0

omit [DecidableEq V] in
theorem TyPat.size_var [DecidableEq V] {v : V} {t : TyPat V} (h : t.occurs v = true) : (σ v).size ≤ (t.inst n σ).size := by
  induction t with
  | var w => simp only [TyPat.occurs, decide_eq_true_eq] at h; rw [h]; exact Nat.le_refl _
  | head _ => simp [TyPat.occurs] at h
  | none => simp [TyPat.occurs] at h
  | app f x hf hx =>
    simp only [TyPat.occurs, Bool.or_eq_true] at h
    simp only [TyPat.inst, RTy.size]
    rcases h with h | h
    · have := hf h; omega
    · have := hx h; omega
  | ref _ t ht =>
    simp only [TyPat.occurs] at h
    simp only [TyPat.inst, RTy.size]
    have := ht h; omega

theorem TyPat.occurs_solution {v : V} {t : TyPat V} (h : t.occurs v = true) (hs : σ v = t.inst n σ) : t = .var v := by
  cases t with
  | var w => simp only [TyPat.occurs, decide_eq_true_eq] at h; rw [h]
  | head _ => simp [TyPat.occurs] at h
  | none => simp [TyPat.occurs] at h
  | app f x =>
    exfalso
    simp only [TyPat.occurs, Bool.or_eq_true] at h
    have e : (σ v).size = (f.inst n σ).size + (x.inst n σ).size + 1 := by rw [hs]; rfl
    rcases h with h | h
    · have := TyPat.size_var (n := n) (σ := σ) h; omega
    · have := TyPat.size_var (n := n) (σ := σ) h; omega
  | ref m t =>
    exfalso
    simp only [TyPat.occurs] at h
    have e : (σ v).size = (t.inst n σ).size + 1 := by rw [hs]; rfl
    have := TyPat.size_var (n := n) (σ := σ) h; omega

omit [DecidableEq V] in
theorem TyPat.local_solution {t : TyPat V} (h : t.mentionsLocal = true) : ¬ (t.inst n σ).Foreign := by
  induction t with
  | var w => simp [TyPat.mentionsLocal] at h
  | head hd => cases hd <;> simp_all [TyPat.mentionsLocal, TyPat.inst, RTy.Foreign]
  | none => simp [TyPat.mentionsLocal] at h
  | app f x hf hx =>
    simp only [TyPat.mentionsLocal, Bool.or_eq_true] at h
    simp only [TyPat.inst, RTy.Foreign]
    rcases h with h | h
    · exact fun c => hf h c.1
    · exact fun c => hx h c.2
  | ref _ t ht => simp only [TyPat.mentionsLocal] at h; simpa only [TyPat.inst, RTy.Foreign] using ht h

theorem TyPat.subst_solution {v : V} {s : TyPat V} (hs : σ v = s.inst n σ) (t : TyPat V) : (TyPat.subst v s t).inst n σ = t.inst n σ := by
  induction t with
  | var w =>
    by_cases h : v = w
    · subst h; simp [TyPat.subst, TyPat.inst, hs]
    · simp [TyPat.subst, h]
  | head _ => rfl
  | none => rfl
  | app f x hf hx => simp only [TyPat.subst, TyPat.inst, hf, hx]
  | ref _ t ht => simp only [TyPat.subst, TyPat.inst, ht]

/-- What has a solution is not refused. -/
theorem unify_sound (st : V → Bool) (foreign : ∀ v, st v = true → (σ v).Foreign) (k : Nat) :
    ∀ es : List (TyPat V × TyPat V), (∀ e ∈ es, e.1.inst n σ = e.2.inst n σ) → unify st k es = true := by
  induction k with
  | zero => intro _ _; rfl
  | succ k ih =>
    intro es hes
    cases es with
    | nil => rfl
    | cons e es =>
      obtain ⟨a, b⟩ := e
      have hab := hes (a, b) List.mem_cons_self
      have hes' : ∀ e ∈ es, e.1.inst n σ = e.2.inst n σ := fun e he => hes e (List.mem_cons_of_mem _ he)
      simp only at hab
      have elim : ∀ (v : V) (t : TyPat V), σ v = t.inst n σ → t ≠ .var v →
          (if t.occurs v then false else if st v && t.mentionsLocal then false
            else unify st k (es.map fun e => (TyPat.subst v t e.1, TyPat.subst v t e.2))) = true := by
        intro v t hv hne
        rw [if_neg (fun ho => hne (TyPat.occurs_solution ho hv)), if_neg, ih]
        · intro e he
          obtain ⟨e', he', rfl⟩ := List.mem_map.1 he
          simp only [TyPat.subst_solution hv, hes' e' he']
        · intro h
          rw [Bool.and_eq_true] at h
          exact TyPat.local_solution (n := n) (σ := σ) h.2 (hv ▸ foreign v h.1)
      unfold unify
      cases a with
      | var v =>
        simp only
        split
        · exact ih es hes'
        · exact elim v b hab ‹_›
      | head h =>
        cases b with
        | var v => exact elim v _ hab.symm (by simp)
        | head h' =>
          simp only [TyPat.inst, RTy.head.injEq] at hab
          simp only [hab, if_true]
          exact ih es hes'
        | none => simp [TyPat.inst] at hab
        | app _ _ => simp [TyPat.inst] at hab
        | ref _ _ => simp [TyPat.inst] at hab
      | none =>
        cases b with
        | var v => exact elim v _ hab.symm (by simp)
        | none => exact ih es hes'
        | head _ => simp [TyPat.inst] at hab
        | app _ _ => simp [TyPat.inst] at hab
        | ref _ _ => simp [TyPat.inst] at hab
      | app f x =>
        cases b with
        | var v => exact elim v _ hab.symm (by simp)
        | app g y =>
          simp only [TyPat.inst, RTy.app.injEq] at hab
          refine ih _ ?_
          intro e he
          rcases List.mem_cons.1 he with rfl | he
          · exact hab.1
          · rcases List.mem_cons.1 he with rfl | he
            · exact hab.2
            · exact hes' e he
        | head _ => simp [TyPat.inst] at hab
        | none => simp [TyPat.inst] at hab
        | ref _ _ => simp [TyPat.inst] at hab
      | ref m t =>
        cases b with
        | var v => exact elim v _ hab.symm (by simp)
        | ref m' t' =>
          simp only [TyPat.inst, RTy.ref.injEq] at hab
          simp only [hab.1, if_true]
          refine ih _ ?_
          intro e he
          rcases List.mem_cons.1 he with rfl | he
          · exact hab.2
          · exact hes' e he
        | head _ => simp [TyPat.inst] at hab
        | none => simp [TyPat.inst] at hab
        | app _ _ => simp [TyPat.inst] at hab
end
end Diman
