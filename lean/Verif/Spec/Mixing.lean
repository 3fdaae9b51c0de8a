import Verif.Spec.Coherence
/-!
# Which traits hold in a program with several unit systems (C70)
-/
namespace Diman

/-- A unit system in a program: its number among them, how many base dimensions it has, and the cargo features it was expanded with. -/
structure SystemInfo where
  sys : Nat
  baseDims : Nat
  on : Feature → Bool

section
variable {E : Type} [FieldOps E]

/-- In the program, the type `A` implements the trait `t` with the parameter `B` (`A: t<B>`): by a block that one of its unit systems generates, or by an
implementation of core: `From<A> for A`, and comparisons of references by comparing what they point to. `Into` is not a case of its own: `B: Into<A>` is
`A: From<B>`. -/
inductive TraitHolds (ss : List SystemInfo) : TraitId → RTy E → RTy E → Prop where
  | generated {s : SystemInfo} {i : ImplBlock} {t : TraitId} {x : TyPat GVar} {σ : GVar → RTy E} :
      s ∈ ss → i ∈ allImpls s.sys s.on → i.trait = some (t, [x]) → TraitHolds ss t (i.self.inst s.baseDims σ) (x.inst s.baseDims σ)
  | same (A : RTy E) : TraitHolds ss .from A A
  | eqRefs {A B : RTy E} (m m' : Bool) : TraitHolds ss (.op .partialEq) A B → TraitHolds ss (.op .partialEq) (.ref m A) (.ref m' B)
  | ordRefs {A B : RTy E} (m : Bool) : TraitHolds ss (.op .partialOrd) A B → TraitHolds ss (.op .partialOrd) (.ref m A) (.ref m B)

/-- The type is, behind references, a type of the unit system `a`: a quantity, a unit, a dimension, … -/
inductive RTy.Of (a : Nat) : RTy E → Prop where
  | head (t : LocalTy) : RTy.Of a (.head (.loc a t))
  | app {f : RTy E} (x : RTy E) : RTy.Of a f → RTy.Of a (.app f x)
  | ref (m : Bool) {t : RTy E} : RTy.Of a t → RTy.Of a (.ref m t)

/-- What the type is made of is not itself a type of a unit system: the arguments of type constructors are not, as in `Quantity<f64, D>` or
`Quantity<MyFloat, D>`, but not in `Quantity<Quantity<f64, D>, none>`. -/
def RTy.Plain : RTy E → Prop
  | .app f x => f.Plain ∧ x.Foreign
  | .ref _ t => t.Plain
  | _ => True

/-- `Quantity<S, D>` of the system `a` -/
def RTy.quantityOf (a : Nat) (S : RTy E) (D : RTy E) : RTy E := .app (.app (.head (.loc a .quantity)) S) D
/-- `Unit<D, F>` -/
def RTy.unitOf (a : Nat) (D F : RTy E) : RTy E := .app (.app (.head (.loc a .unit)) D) F
/-- `RuntimeUnit<D>` -/
def RTy.runtimeUnitOf (a : Nat) (D : RTy E) : RTy E := .app (.head (.loc a .runtimeUnit)) D
end
end Diman
