import Verif.Spec.Program
/-!
# How a user program can fail to end (C72)
The programs of `Spec/Program.lean`. The rules below say where a program panics: in `clamp` with bounds for which `lo <= hi` does not hold (the
assertion in core's `f32::clamp` / `f64::clamp`; for floats, also if a bound is NaN), in a function of plain values that the user wrote, and at a vector index out of range. Everything
else only passes a panic on. There is no rule for a missing variable, a value of the wrong kind, or any operator or other generated function.
-/
namespace Diman
variable {E U K M : Type} [FieldOps E] [DecidableEq E] [Prims K M] [NatCast K]

/-- core's `clamp(lo, hi)` asserts `lo <= hi`. -/
class AssertingClamp (K M : Type) [Prims K M] : Prop where
  clamp_none : ∀ (t : FloatTy) (x lo hi : K), Prims.clamp M t x lo hi = none ↔ (Prims.lt M t lo hi || Prims.eq M t lo hi) = false

/-- An expression or an argument list panics. -/
inductive TmPanics (n : Nat) (fac : U → M) (ρ : List (Val K M)) : Sum (Tm E U K M) (Tms E U K M) → Prop where
  /-- `x.clamp(lo, hi)` where `lo <= hi` does not hold -/
  | clamp {s d t t' args x lo hi a b} : args.eval n fac ρ = some [x, lo, hi] → lo.raw? = some [a] → hi.raw? = some [b] →
      (Prims.lt M s.base a b || Prims.eq M s.base a b) = false → TmPanics n fac ρ (.inl (.call .clamp [.quantity s d, t, t'] args))
  /-- a function of plain values panics -/
  | plain {t g args vs} : args.eval n fac ρ = some vs → g vs = none → TmPanics n fac ρ (.inl (.plain t g args))
  | opLeft {o i l r} : TmPanics n fac ρ (.inl l) → TmPanics n fac ρ (.inl (.op o i l r))
  | opRight {o i l r a} : l.eval n fac ρ = some a → TmPanics n fac ρ (.inl r) → TmPanics n fac ρ (.inl (.op o i l r))
  | callArgs {f tys args} : TmPanics n fac ρ (.inr args) → TmPanics n fac ρ (.inl (.call f tys args))
  | plainArgs {t g args} : TmPanics n fac ρ (.inr args) → TmPanics n fac ρ (.inl (.plain t g args))
  | iteCond {c a b} : TmPanics n fac ρ (.inl c) → TmPanics n fac ρ (.inl (.ite c a b))
  | iteTrue {c a b} : c.eval n fac ρ = some (.bool true) → TmPanics n fac ρ (.inl a) → TmPanics n fac ρ (.inl (.ite c a b))
  | iteFalse {c a b} : c.eval n fac ρ = some (.bool false) → TmPanics n fac ρ (.inl b) → TmPanics n fac ρ (.inl (.ite c a b))
  | head {a as} : TmPanics n fac ρ (.inl a) → TmPanics n fac ρ (.inr (.cons a as))
  | tail {a as v} : a.eval n fac ρ = some v → TmPanics n fac ρ (.inr as) → TmPanics n fac ρ (.inr (.cons a as))

/-- Why a statement gives no result: a panic, or the bound on the depth of iterations and calls. -/
inductive Stop where
  | panic | fuel
deriving DecidableEq

/-- A statement stops without a result. -/
inductive Stops (n : Nat) (fac : U → M) (F : List (Func E U K M)) : Stop → Nat → Cmd E U K M → Store K M → Prop where
  | assign {k x t σ} : TmPanics n fac σ.vars (.inl t) → Stops n fac F .panic k (.assign x t) σ
  | letValue {k t c σ} : TmPanics n fac σ.vars (.inl t) → Stops n fac F .panic k (.letIn t c) σ
  | letBody {w k t c v} {σ : Store K M} : t.eval n fac σ.vars = some v → Stops n fac F w k c { σ with vars := v :: σ.vars } →
      Stops n fac F w k (.letIn t c) σ
  | first {w k c d σ} : Stops n fac F w k c σ → Stops n fac F w k (.seq c d) σ
  | second {w k c d σ σ'} : c.exec n fac F k σ = some σ' → Stops n fac F w k d σ' → Stops n fac F w k (.seq c d) σ
  | iteCond {k b c d σ} : TmPanics n fac σ.vars (.inl b) → Stops n fac F .panic k (.ite b c d) σ
  | iteTrue {w k b c d} {σ : Store K M} : b.eval n fac σ.vars = some (.bool true) → Stops n fac F w k c σ → Stops n fac F w k (.ite b c d) σ
  | iteFalse {w k b c d} {σ : Store K M} : b.eval n fac σ.vars = some (.bool false) → Stops n fac F w k d σ → Stops n fac F w k (.ite b c d) σ
  | loopFuel {b c σ} : Stops n fac F .fuel 0 (.loop b c) σ
  | loopCond {k b c σ} : TmPanics n fac σ.vars (.inl b) → Stops n fac F .panic (k + 1) (.loop b c) σ
  | loopBody {w k b c} {σ : Store K M} : b.eval n fac σ.vars = some (.bool true) → Stops n fac F w k c σ → Stops n fac F w (k + 1) (.loop b c) σ
  | loopNext {w k b c} {σ σ' : Store K M} : b.eval n fac σ.vars = some (.bool true) → c.exec n fac F k σ = some σ' →
      Stops n fac F w k (.loop b c) σ' → Stops n fac F w (k + 1) (.loop b c) σ
  | vecIn {w k c} {σ : Store K M} : Stops n fac F w k c { σ with vecs := [] :: σ.vecs } → Stops n fac F w k (.vecIn c) σ
  | push {k a t σ} : TmPanics n fac σ.vars (.inl t) → Stops n fac F .panic k (.push a t) σ
  | loadArgs {k x a g args σ} : TmPanics n fac σ.vars (.inr args) → Stops n fac F .panic k (.load x a g args) σ
  | loadIndex {k x a g args vs} {σ : Store K M} : args.eval n fac σ.vars = some vs → g vs = none → Stops n fac F .panic k (.load x a g args) σ
  /-- `a[i]` with `i >= a.len()` -/
  | loadBounds {k x a g args vs i l} {σ : Store K M} : args.eval n fac σ.vars = some vs → g vs = some i → σ.vecs[a]? = some l → l.length ≤ i →
      Stops n fac F .panic k (.load x a g args) σ
  | storeArgs {k a g args t σ} : TmPanics n fac σ.vars (.inr args) → Stops n fac F .panic k (.store a g args t) σ
  | storeIndex {k a g args t vs} {σ : Store K M} : args.eval n fac σ.vars = some vs → g vs = none → Stops n fac F .panic k (.store a g args t) σ
  | storeValue {k a g args t vs i} {σ : Store K M} : args.eval n fac σ.vars = some vs → g vs = some i → TmPanics n fac σ.vars (.inl t) →
      Stops n fac F .panic k (.store a g args t) σ
  /-- `a[i] = t` with `i >= a.len()` -/
  | storeBounds {k a g args t vs i v l} {σ : Store K M} : args.eval n fac σ.vars = some vs → g vs = some i → t.eval n fac σ.vars = some v →
      σ.vecs[a]? = some l → l.length ≤ i → Stops n fac F .panic k (.store a g args t) σ
  | callFuel {x f args vecs σ} : Stops n fac F .fuel 0 (.call x f args vecs) σ
  | callArgs {k x f args vecs σ} : TmPanics n fac σ.vars (.inr args) → Stops n fac F .panic (k + 1) (.call x f args vecs) σ
  | callBody {w k x f args vecs fn vs ps} {σ : Store K M} : F[f]? = some fn → args.eval n fac σ.vars = some vs → vecs.mapM (σ.vecs[·]?) = some ps →
      Stops n fac F w k fn.body ⟨vs, ps⟩ → Stops n fac F w (k + 1) (.call x f args vecs) σ
  | callResult {k x f args vecs fn vs ps} {σ σ' : Store K M} : F[f]? = some fn → args.eval n fac σ.vars = some vs →
      vecs.mapM (σ.vecs[·]?) = some ps → fn.body.exec n fac F k ⟨vs, ps⟩ = some σ' → TmPanics n fac σ'.vars (.inl fn.result) →
      Stops n fac F .panic (k + 1) (.call x f args vecs) σ

mutual
/-- An expression has none of the places where something can panic: no `clamp`, and its functions of plain values always return. -/
def Tm.Quiet : Tm E U K M → Prop
  | .var _ | .num _ _ | .unit _ => True
  | .op _ _ l r => l.Quiet ∧ r.Quiet
  | .call f _ args => f ≠ .clamp ∧ args.Quiet
  | .plain _ g args => (∀ vs, g vs ≠ none) ∧ args.Quiet
  | .ite c a b => c.Quiet ∧ a.Quiet ∧ b.Quiet
/-- The same for an argument list. -/
def Tms.Quiet : Tms E U K M → Prop
  | .nil => True
  | .cons a as => a.Quiet ∧ as.Quiet
end

/-- A statement has none of the places where something can panic: its expressions have none, and it does not index vectors. -/
def Cmd.Quiet : Cmd E U K M → Prop
  | .skip | .len .. => True
  | .assign _ t | .push _ t => t.Quiet
  | .letIn t c => t.Quiet ∧ c.Quiet
  | .seq c d => c.Quiet ∧ d.Quiet
  | .ite b c d => b.Quiet ∧ c.Quiet ∧ d.Quiet
  | .loop b c => b.Quiet ∧ c.Quiet
  | .vecIn c => c.Quiet
  | .load .. | .store .. => False
  | .call _ _ args _ => args.Quiet
end Diman
