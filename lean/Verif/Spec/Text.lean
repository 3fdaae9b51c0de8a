import Verif.Model.Text
import Verif.Spec.Resolve
import Verif.Spec.DimType
import Mathlib.Data.Nat.Digits.Defs
import Mathlib.Algebra.BigOperators.Group.List.Basic
/-!
# Specification vocabulary for printed and parsed quantities (C26-C30)
Relational descriptions of the texts, independent of how the code cuts strings into pieces.
-/
namespace Diman

/-- `s` consists of the words `ws`, separated (and possibly surrounded) by whitespace. -/
inductive Words : Str → List Str → Prop
  | blank {gap : Str} : (∀ c ∈ gap, isWs c = true) → Words gap []
  | word {gap w rest : Str} {ws : List Str} : (∀ c ∈ gap, isWs c = true) → w ≠ [] → (∀ c ∈ w, isWs c = false) →
      (∀ c ∈ rest.head?, isWs c = true) → Words rest ws → Words (gap ++ (w ++ rest)) (w :: ws)

/-- `s` is the decimal digits `ds` (most significant first), at least one. -/
def DigitText (s : Str) (n : Nat) : Prop :=
  ∃ ds : List Nat, ds ≠ [] ∧ (∀ d ∈ ds, d < 10) ∧ s = ds.map digitChar ∧ n = Nat.ofDigits 10 ds.reverse

/-- `s` is a decimal integer numeral with value `i`: an optional sign and digits. -/
def IntNumeral (s : Str) (i : Int) : Prop :=
  ∃ n : Nat, (DigitText s n ∧ i = n) ∨ (∃ cs, s = '+' :: cs ∧ DigitText cs n ∧ i = n) ∨ (∃ cs, s = '-' :: cs ∧ DigitText cs n ∧ i = -(n : Int))

/-- The word `w` names the unit symbol `sym` to the power `e`: the symbol alone (`m`), or `sym^e` with an integer numeral in the range
of `i32` (`s^-2`). -/
def UnitWord (w sym : Str) (e : Int) : Prop :=
  ('^' ∉ w ∧ sym = w ∧ e = 1) ∨ (∃ t, w = sym ++ '^' :: t ∧ '^' ∉ sym ∧ IntNumeral t e ∧ InI32 e)

/-- Characters that cannot be part of a unit symbol (a Rust identifier) or of a printed number. -/
def reservedChars : List Char := ['^', '(', ')', '[', ']', ',']

/-- A text that can stand as one word: not empty, no whitespace, no reserved character. Every Rust identifier is one. -/
def PlainText (s : Str) : Prop := s ≠ [] ∧ ∀ c ∈ s, isWs c = false ∧ c ∉ reservedChars

section
variable {E K M : Type} [Exponent E] [LawfulExponent E]

/-- One printed unit: the unit, and its printed exponent if there is one. -/
structure UnitTerm (E M : Type) where
  unit : UnitDef E M
  symbol : Str
  exponent : Option E

/-- ` m`, or ` s^-2` -/
def UnitTerm.text [ShowExponent E] (t : UnitTerm E M) : Str :=
  match t.exponent with
  | none => ' ' :: t.symbol
  | some e => ' ' :: (t.symbol ++ '^' :: ShowExponent.showE e)

/-- The exponent a printed unit stands for. -/
def UnitTerm.power (t : UnitTerm E M) : ℚ :=
  match t.exponent with
  | none => 1
  | some e => LawfulExponent.val e

/-- A list of unit powers, e.g. meters¹ seconds⁻². -/
abbrev UnitPowers (E M : Type) := List (UnitDef E M × Int)

/-- The exponent of base dimension `k` of a product of unit powers. -/
def UnitPowers.expo (us : UnitPowers E M) (k : Str) : ℚ := (us.map fun ue => (ue.2 : ℚ) * ue.1.dims.expo k).sum

/-- The words `ws` name the unit powers `us` of the unit system. -/
def NamesUnits (defs : Defs E M) (ws : List Str) (us : UnitPowers E M) : Prop :=
  List.Forall₂ (fun w ue => ue.1 ∈ defs.units ∧ ∃ sym, ue.1.symbol = some sym ∧ UnitWord w sym ue.2) ws us

/-- `d` is the dimension of the product of the unit powers `us`: the same exponent for every base dimension. -/
def HasDimension (defs : Defs E M) (us : UnitPowers E M) (d : DimVal E) : Prop := d.vec = defs.baseDimensions.map us.expo

variable [MagOps E M] [Prims K M] [TextPrims K M]

/-- The conversion factor of a product of unit powers, computed in `f64` from left to right; each unit's factor is the one of the unit
system (`Magnitude::into_f64`). -/
def UnitPowers.factor (K : Type) [Prims K M] [TextPrims K M] (us : UnitPowers E M) : K :=
  us.foldl (fun f ue => Prims.mul M .f64 f
    (Prims.into .f64 (MagOps.pow (TextPrims.fromF64 (Prims.into .f64 ue.1.mag : K)) (Exponent.ofInt ue.2 : E) : M))) (Prims.one M .f64)

/-- What a text means for a float quantity: a number, then units; the value is the number times the factor of the units. -/
def FloatReading (M : Type) [MagOps E M] [Prims K M] [TextPrims K M] (defs : Defs E M) (t : FloatTy) (text : Str) (d : DimVal E) (r : Raw K) :
    Prop :=
  ∃ num ws, Words text (num :: ws) ∧ ∃ x : K, TextPrims.parseF M t num = some x ∧
  ∃ us : UnitPowers E M, NamesUnits defs ws us ∧ HasDimension defs us d ∧
    r = [Prims.mul M t x (TextPrims.ofF64 M t (us.factor K))]

/-- What a text means for a vector quantity: as many numbers as the vector has components in parentheses, then units; every component is
multiplied by the factor of the units. Text before the opening parenthesis is ignored; the closing one is the first one. -/
def VectorReading (M : Type) [MagOps E M] [Prims K M] [TextPrims K M] (defs : Defs E M) (s : Storage) (text : Str) (d : DimVal E)
    (r : Raw K) : Prop :=
  ∃ pre inside post, text = pre ++ '(' :: (inside ++ ')' :: post) ∧ '(' ∉ pre ∧ ')' ∉ pre ∧ ')' ∉ inside ∧
  ∃ nums, Words inside nums ∧ nums.length = s.numDims ∧
  ∃ xs : List K, List.Forall₂ (fun w x => TextPrims.parseF M s.base w = some x) nums xs ∧
  ∃ ws, Words post ws ∧ ∃ us : UnitPowers E M, NamesUnits defs ws us ∧ HasDimension defs us d ∧
    r = xs.map fun x => Prims.mul M s.base (TextPrims.ofF64 M s.base (us.factor K)) x

/-- The laws of text and numbers that round trips need. `Valid` are the values of the float type. They hold for core's floats (see
`Proofs/SoftText.lean`), given that core's `Display` output is read back by `FromStr`. -/
class LawfulText (E K M : Type) [Exponent E] [MagOps E M] [Prims K M] [TextPrims K M] where
  Valid : FloatTy → K → Prop
  parse_show : ∀ {t : FloatTy} {x : K}, Valid t x → TextPrims.parseF M t (TextPrims.showF M t x) = some x
  show_plain : ∀ {t : FloatTy} {x : K}, Valid t x → PlainText (TextPrims.showF M t x)
  one_isOne : MagOps.isOne E (MagOps.one E : M) = true
  isOne_into : ∀ {m : M}, MagOps.isOne E m = true → (Prims.into .f64 m : K) = Prims.one M .f64
  one_finite : TextPrims.finite M (Prims.one M .f64 : K) = true
  pow_one : ∀ {i : Int}, InI32 i →
    (Prims.into .f64 (MagOps.pow (TextPrims.fromF64 (Prims.one M .f64 : K)) (Exponent.ofInt i : E) : M) : K) = Prims.one M .f64
  one_mul_one : Prims.mul M .f64 (Prims.one M .f64 : K) (Prims.one M .f64) = Prims.one M .f64
  ofF64_one : ∀ t : FloatTy, TextPrims.ofF64 M t (Prims.one M .f64 : K) = Prims.one M t
  mul_one : ∀ {t : FloatTy} {x : K}, Valid t x → Prims.mul M t x (Prims.one M t) = x
  one_mul : ∀ {t : FloatTy} {x : K}, Valid t x → Prims.mul M t (Prims.one M t) x = x

/-- Exponents whose integers print as integers. -/
class LawfulShow (E : Type) [Exponent E] [ShowExponent E] : Prop where
  show_ofInt : ∀ i : Int, ShowExponent.showE (Exponent.ofInt i : E) = showInt i

end
end Diman
