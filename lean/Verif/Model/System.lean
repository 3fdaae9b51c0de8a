import Verif.Model.Resolve
/-!
# The front end
Models crates/diman_unit_system/src/lib.rs `run_unit_system`, from the parsed statements to the resolved definitions (parsing is
`Model/Parse.lean`, code generation the `Model/Gen*` files).
-/
namespace Diman

/-- lib.rs:13-26 `run_unit_system`: `expand_templates`, then `resolve`. `factor` gives the prefix factors. Result: the definitions
handed to code generation together with all emitted errors; `none` if the macro panics. -/
def runUnitSystem {E M : Type} [Exponent E] [MagOps E M] (factor : Prefix → M) (t : UnresolvedTemplates E M) :
    Option (Defs E M × List Diag) :=
  resolveDefs (UnresolvedTemplates.expand (MagOps.one E) factor t)

end Diman
