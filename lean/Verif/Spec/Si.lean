import Verif.Model.Lexer
import Verif.Model.SiText
import Verif.Spec.Resolve
/-!
# What C36 says about src/si.rs
-/
namespace Diman
variable (E M : Type) [Exponent E] [LawfulExponent E] [ReadExponent E] [MagOps E M]

/-- "The SI module is consistent", for a build with exponent type `E`, whatever the numbers (`M`, `mag`, `factor`) are. -/
def SiConsistent (mag : Number → M) (factor : Prefix → M) : Prop :=
  ∃ tokens statements defs,
    -- the text of src/si.rs is read, and accepted without any error
    lex siLines = some tokens ∧ parseSystem (ReadExponent.rational E) tokens = some statements ∧
    unitSystem (E := E) mag factor tokens = .done (defs, []) ∧
    -- every unit statement is annotated; each of its names (with and without prefix, with and without alias) is a unit whose
    -- exponents are exactly those of the annotated dimension
    (∀ u ∈ statements.units, ∃ a, u.annotation = some a ∧ ∃ D ∈ defs.dimensions, D.name = a ∧
      ∀ pre ∈ none :: u.prefixes.map some, ∀ base ∈ u.name :: u.aliases,
        ∃ U ∈ defs.units, U.name = (match pre with | none => [] | some p => p.name) ++ base ∧ ∀ k, U.dims.expo k = D.dims.expo k) ∧
    -- and there are no further units
    (∀ U ∈ defs.units, ∃ u ∈ statements.units, ∃ pre ∈ none :: u.prefixes.map some, ∃ base ∈ u.name :: u.aliases,
        U.name = (match pre with | none => [] | some p => p.name) ++ base) ∧
    -- all unit names are distinct, and so are all symbols
    (defs.units.map UnitDef.name).Nodup ∧ (defs.units.filterMap UnitDef.symbol).Nodup ∧
    -- unit names also differ from the names of constants and dimensions
    (defs.dimensions.map DimensionDef.name ++ defs.units.map UnitDef.name ++ defs.constants.map ConstantDef.name).Nodup

end Diman
