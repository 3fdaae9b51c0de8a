import Verif.Model.Types
import Verif.Spec.Grammar
/-!
# Plain and raw identifiers (C83)
-/
namespace Diman

/-- A character an identifier can start with: a letter or an underscore (every non-ASCII character counts as a letter). -/
def Letter (c : Char) : Prop := ('a' ≤ c ∧ c ≤ 'z') ∨ ('A' ≤ c ∧ c ≤ 'Z') ∨ c = '_' ∨ 128 ≤ c.toNat

/-- An identifier as in `meters`: a letter or underscore, then letters, underscores and digits. -/
def PlainIdent (x : Str) : Prop := ∃ c s, x = c :: s ∧ Letter c ∧ ∀ d ∈ s, Letter d ∨ ('0' ≤ d ∧ d ≤ '9')

/-- A raw identifier, as in `r#in`. -/
def RawIdent (x : Str) : Prop := ∃ y, PlainIdent y ∧ x = str!"r#" ++ y

/-- Names, aliases and symbols of units and names of base dimensions satisfy `P`. -/
structure Unresolved.Written {E M : Type} (P : Str → Prop) (t : UnresolvedTemplates E M) : Prop where
  units : ∀ u ∈ t.units, P u.name ∧ (∀ a ∈ u.aliases, P a) ∧ ∀ s, u.symbol = some s → P s
  baseDimensions : ∀ d ∈ t.dimensions, d.rhs = .base () → P d.name

/-- A unit with prefixes has a raw name, alias or symbol, or a base dimension has a raw name. -/
def Unresolved.RawTrouble {E M : Type} (t : UnresolvedTemplates E M) : Prop :=
  (∃ u ∈ t.units, u.prefixes ≠ [] ∧ (RawIdent u.name ∨ (∃ a ∈ u.aliases, RawIdent a) ∨ ∃ s, u.symbol = some s ∧ RawIdent s)) ∨
    ∃ d ∈ t.dimensions, d.rhs = .base () ∧ RawIdent d.name

end Diman
