import Verif.Model.Str
/-!
# Snake case conversion of base dimension names
Models crates/diman_unit_system/src/types/base_dimension.rs. Simplification: `char::is_uppercase` and `str::to_lowercase` are
modelled on ASCII only; non-ASCII letters are treated as neither upper nor lower case.
-/
namespace Diman

/-- `char::is_uppercase` (ASCII part) -/
def isUpper (c : Char) : Bool := decide ('A'.toNat ≤ c.toNat ∧ c.toNat ≤ 'Z'.toNat)

/-- `char::to_lowercase` (ASCII part) -/
def toLower (c : Char) : Char := if isUpper c then Char.ofNat (c.toNat + 32) else c

/-- `str::split_inclusive(|c| c.is_uppercase())` on the characters: pieces end after each matching character; a trailing piece
without a match is kept if non-empty. `acc` is the current piece, reversed. -/
def splitInclusive (p : Char → Bool) : Str → Str → List Str
  | acc, [] => if acc.isEmpty then [] else [acc.reverse]
  | acc, c :: s => if p c then (c :: acc).reverse :: splitInclusive p [] s else splitInclusive p (c :: acc) s

/-- `slice::join("_")` -/
def joinWith (sep : Str) : List Str → Str
  | [] => []
  | [w] => w
  | w :: ws => w ++ sep ++ joinWith sep ws

/-- base_dimension.rs:12-20 `str_to_snakecase`: reverse, split after upper-case letters, reverse and lower-case every word,
reverse the word list, join with underscores. -/
def toSnakecase (s : Str) : Str :=
  joinWith ['_'] ((splitInclusive isUpper [] s.reverse).map (fun w => w.reverse.map toLower)).reverse

end Diman
