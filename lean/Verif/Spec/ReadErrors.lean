import Verif.Model.ReadErrors
import Verif.Spec.Text
/-!
# What is wrong with a text (C75)
The first wrong thing in a text, reading it from left to right, independent of how the code finds it.
-/
namespace Diman
variable {E K M : Type} [Exponent E] [LawfulExponent E]

/-- What is wrong with one word in the place of a unit. -/
inductive WordWrong (defs : Defs E M) : Str → ReadError E → Prop where
  /-- more than one `^` -/
  | carets {w} : 2 ≤ w.count '^' → WordWrong defs w (.badUnit w)
  /-- `unit^text` where the text is not an integer in the range of `i32` -/
  | exponent {u e} : '^' ∉ u → '^' ∉ e → (¬ ∃ i, IntNumeral e i ∧ InI32 i) → WordWrong defs (u ++ '^' :: e) (.exponent e)
  /-- the symbol of no unit -/
  | unknown {w u i} : UnitWord w u i → (∀ U ∈ defs.units, U.symbol ≠ some u) → WordWrong defs w (.unknownUnit u)

/-- What is wrong with the unit words of a text: the first wrong word; or, if all are right, the dimension. -/
inductive UnitsWrong (defs : Defs E M) (target : DimVal E) (context : Str) : List Str → ReadError E → Prop where
  | word {good bad rest us e} : NamesUnits defs good us → WordWrong defs bad e → UnitsWrong defs target context (good ++ bad :: rest) e
  | dimension {ws us given} : NamesUnits defs ws us → HasDimension defs us given → given.Canonical → given ≠ target →
      UnitsWrong defs target context ws (.mismatch target given context)

/-- `core` is the text without the whitespace around it. -/
def Trimmed (text core : Str) : Prop :=
  ∃ a b, text = a ++ (core ++ b) ∧ (∀ c ∈ a, isWs c = true) ∧ (∀ c ∈ b, isWs c = true) ∧
    (∀ c ∈ core.head?, isWs c = false) ∧ (∀ c ∈ core.getLast?, isWs c = false)

variable [TextPrims K M]

/-- What is wrong with a text read as a float quantity. -/
inductive FloatWrong (K : Type) [TextPrims K M] (defs : Defs E M) (t : FloatTy) (target : DimVal E) (text : Str) : ReadError E → Prop where
  | blank : Words text [] → FloatWrong K defs t target text .empty
  | number {w ws} : Words text (w :: ws) → (TextPrims.parseF M t w : Option K) = none → FloatWrong K defs t target text (.number w)
  | units {w ws core e} {x : K} : Words text (w :: ws) → TextPrims.parseF M t w = some x → Trimmed text core → UnitsWrong defs target core ws e →
      FloatWrong K defs t target text e

/-- What is wrong with a text read as a vector quantity. -/
inductive VectorWrong (K : Type) [TextPrims K M] (defs : Defs E M) (s : Storage) (target : DimVal E) (text : Str) : ReadError E → Prop where
  | noClosing : ')' ∉ text → VectorWrong K defs s target text .noClosing
  | noOpening {a b} : text = a ++ ')' :: b → ')' ∉ a → '(' ∉ a → VectorWrong K defs s target text .noOpening
  | count {pre inside post nums} : text = pre ++ '(' :: (inside ++ ')' :: post) → '(' ∉ pre → ')' ∉ pre → ')' ∉ inside → Words inside nums →
      nums.length ≠ s.numDims → VectorWrong K defs s target text (.count nums.length s.numDims)
  | component {pre inside post good bad rest} : text = pre ++ '(' :: (inside ++ ')' :: post) → '(' ∉ pre → ')' ∉ pre → ')' ∉ inside →
      Words inside (good ++ bad :: rest) → (good ++ bad :: rest).length = s.numDims →
      (∀ w ∈ good, (TextPrims.parseF M s.base w : Option K) ≠ none) → (TextPrims.parseF M s.base bad : Option K) = none →
      VectorWrong K defs s target text (.component good.length (str!"invalid float literal") bad)
  | units {pre inside post nums ws core e} : text = pre ++ '(' :: (inside ++ ')' :: post) → '(' ∉ pre → ')' ∉ pre → ')' ∉ inside →
      Words inside nums → nums.length = s.numDims → (∀ w ∈ nums, (TextPrims.parseF M s.base w : Option K) ≠ none) →
      Words post ws → Trimmed text core → UnitsWrong defs target core ws e → VectorWrong K defs s target text e
end Diman
