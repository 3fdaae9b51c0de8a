/-!
# Strings and identifiers

`Str` stands for Rust's `String`/`&str` and for `proc_macro2::Ident` (whose equality and order are those of
its text). Simplification: a string is its list of code points; spans are dropped.
-/
namespace Diman

/-- Rust strings / identifiers as lists of code points. -/
abbrev Str := List Char

open Lean in
/-- `str!"abc"` is the explicit character list `['a','b','c']` (kernel-friendly string literal). -/
macro "str!" s:str : term => do
  let cs ← s.getString.toList.mapM fun c => pure (Syntax.mkCharLit c)
  `(([$(cs.toArray),*] : List Char))

/-- Lexicographic comparison of identifiers by code point (`Ord for Ident`, used by
`BTreeMap<Ident, _>` in resolve/ident_storage.rs:118). UTF-8 byte order and code point order agree. -/
def Str.lt : Str → Str → Bool
  | [], [] => false
  | [], _ :: _ => true
  | _ :: _, [] => false
  | a :: as, b :: bs => if a.toNat < b.toNat then true else if b.toNat < a.toNat then false else Str.lt as bs

end Diman
