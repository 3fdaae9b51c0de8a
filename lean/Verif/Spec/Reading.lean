import Verif.Spec.Grammar
import Verif.Spec.Ratio
/-!
# Reading numbers and exponents
What the statements of a unit system mean once numbers and exponents have been read: the same statements, in which every written exponent is
replaced by an exponent of the same value and every number by the conversion factor it stands for.
-/
namespace Diman

/-- The rational number an exponent of either build stands for. -/
class ExponentValue (E : Type) where
  value : E → ℚ
instance : ExponentValue Int := ⟨fun n => n⟩
instance : ExponentValue Ratio := ⟨Ratio.val⟩

/-- The number a written exponent denotes; nothing is said about `n/0`. -/
def ExpSyn.Denotes (x : ExpSyn) (q : ℚ) : Prop :=
  match x.denom with
  | none => q = x.num
  | some d => d ≠ 0 → q = (x.num : ℚ) / d

/-- Names stay, numbers are converted. -/
def ReadsAtom {C D : Type} (f : C → D) : Atom C → Atom D → Prop
  | .other x, a => a = .other x
  | .concrete c, a => a = .concrete (f c)

section
variable {E C D : Type} [ExponentValue E] (f : C → D)
mutual
/-- The same expression, with numbers and exponents read. -/
def ReadsExpr : Expr (Atom C) ExpSyn → Expr (Atom D) E → Prop
  | .value v, .value v' => ReadsFactor v v'
  | .binary l o r, .binary l' o' r' => ReadsExpr l l' ∧ o' = o ∧ ReadsFactor r r'
  | _, _ => False
/-- The same factor, with numbers and exponents read. -/
def ReadsFactor : Factor (Atom C) ExpSyn → Factor (Atom D) E → Prop
  | .value a, .value a' => ReadsAtom f a a'
  | .power a x, .power a' n => ReadsAtom f a a' ∧ x.Denotes (ExponentValue.value n)
  | .paren e, .paren e' => ReadsExpr e e'
  | _, _ => False
end

/-- The same right-hand side. -/
def ReadsDefinition {B : Type} : Definition ExpSyn B C → Definition E B D → Prop
  | .base b, .base b' => b' = b
  | .expression e, .expression e' => ReadsExpr f e e'
  | _, _ => False
end

/-- The same statements. -/
structure ReadsSystem {E M : Type} [ExponentValue E] (mag : Number → M) (t : UnresolvedTemplates ExpSyn Number) (t' : UnresolvedTemplates E M) : Prop where
  dimensionTypes : t'.dimensionTypes = t.dimensionTypes
  quantityTypes : t'.quantityTypes = t.quantityTypes
  dimensions : List.Forall₂ (fun d d' => d'.name = d.name ∧ ReadsDefinition id d.rhs d'.rhs) t.dimensions t'.dimensions
  units : List.Forall₂ (fun u u' => u'.name = u.name ∧ u'.symbol = u.symbol ∧ u'.aliases = u.aliases ∧ u'.prefixes = u.prefixes ∧
    u'.annotation = u.annotation ∧ ReadsDefinition mag u.definition u'.definition) t.units t'.units
  constants : List.Forall₂ (fun c c' => c'.name = c.name ∧ c'.annotation = c.annotation ∧ ReadsExpr mag c.rhs c'.rhs) t.constants t'.constants

section
variable {T : Type}
mutual
/-- The exponents in an expression. -/
def Expr.exponents : Expr T ExpSyn → List ExpSyn
  | .value v => v.exponents
  | .binary l _ r => l.exponents ++ r.exponents
/-- The exponents in a factor. -/
def Factor.exponents : Factor T ExpSyn → List ExpSyn
  | .value _ => []
  | .power _ x => [x]
  | .paren e => e.exponents
end
end

/-- The exponents on a right-hand side. -/
def Definition.exponents {B C : Type} : Definition ExpSyn B C → List ExpSyn
  | .base _ => []
  | .expression e => e.exponents

/-- All exponents in a unit system. -/
def UnresolvedTemplates.exponents (t : UnresolvedTemplates ExpSyn Number) : List ExpSyn :=
  t.dimensions.flatMap (fun d => d.rhs.exponents) ++ t.units.flatMap (fun u => u.definition.exponents) ++ t.constants.flatMap (fun c => c.rhs.exponents)

end Diman
