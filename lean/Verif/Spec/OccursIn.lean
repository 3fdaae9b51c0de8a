import Verif.Model.Parse
/-!
# Identifiers in tokens (C83)
-/
namespace Diman

/-- The identifier occurs among the tokens, in brackets or not. -/
inductive OccursIn (x : Str) : List Tok → Prop
  | here {ts} : OccursIn x (.ident x :: ts)
  | inside {d c ts} (h : OccursIn x c) : OccursIn x (.group d c :: ts)
  | later {t ts} (h : OccursIn x ts) : OccursIn x (t :: ts)

end Diman
