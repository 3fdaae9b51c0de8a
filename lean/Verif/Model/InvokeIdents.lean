import Verif.Model.Parse
import Verif.Model.MakeIdent
/-!
# `unit_system!` with the panics of `Ident::new`
-/
namespace Diman

/-- lib.rs:13-26 `run_unit_system`, from the tokens to the definitions handed to code generation, as `unitSystem` but with `runIdents`. -/
def unitSystemIdents {E M : Type} [ReadExponent E] [Exponent E] [MagOps E M] (mag : Number → M) (factor : Prefix → M) (ts : List Tok) :
    MacroResult (Defs E M × List Diag) :=
  match parseSystem (ReadExponent.rational E) ts with
  | none => .syntaxError
  | some t => match readTemplates (E := E) mag t with
    | none => .panic
    | some t => match runIdents factor t with
      | none => .panic
      | some r => .done r

end Diman
