import Verif.Model.Parse
/-!
# From source text to token trees
The part of the Rust lexer (rustc_lexer / proc_macro) that `unit_system!` inputs such as src/si.rs use: white space, `//` comments (a text is given by its lines),
identifiers, decimal integer and float literals with `_` and exponents, one-character punctuation, and the three delimiters.
Everything else (strings, characters, lifetimes, block comments, suffixes, other radices, `1.` without a digit) gives `none`. This is
not code of the repository; it is here so that the text of src/si.rs itself can be the input of the model.
-/
namespace Diman

/-- A flat token: a leaf, or one side of a delimiter. -/
inductive Flat where
  | tok (t : Tok)
  | opn (d : Delim)
  | cls (d : Delim)

/-- What the lexer is in the middle of. -/
inductive LexMode where
  | idle
  | slash
  | comment
  | ident (rev : List Char)
  | int (v : Nat)
  /-- `digits` behind the decimal point so far -/
  | frac (m : Nat) (digits : Nat)
  | expSign (m : Nat) (digits : Nat)
  | exp (m : Nat) (digits : Nat) (neg : Bool) (e : Nat) (some : Bool)

/-- `0`..`9` -/
def isDigitChar (c : Char) : Bool := 48 ≤ c.toNat && c.toNat ≤ 57

/-- `XID_Start` or `_`, with every non-ASCII character counted as `XID_Start`. -/
def isIdentStart (c : Char) : Bool :=
  (97 ≤ c.toNat && c.toNat ≤ 122) || (65 ≤ c.toNat && c.toNat ≤ 90) || c.toNat == 95 || 128 ≤ c.toNat

/-- `XID_Continue`, likewise. -/
def isIdentCont (c : Char) : Bool := isIdentStart c || isDigitChar c

/-- White space: tab, line feed, carriage return, blank. -/
def isBlankChar (c : Char) : Bool := c.toNat == 32 || c.toNat == 10 || c.toNat == 9 || c.toNat == 13

/-- Brackets. -/
def delimChar (c : Char) : Option Flat :=
  if c = '(' then some (.opn .paren) else if c = ')' then some (.cls .paren)
  else if c = '[' then some (.opn .bracket) else if c = ']' then some (.cls .bracket)
  else if c = '{' then some (.opn .brace) else if c = '}' then some (.cls .brace)
  else none

/-- Punctuation characters other than the slash. -/
def isPunctChar (c : Char) : Bool :=
  (str!"=<>!~+-*%^&|@.,;:#$?").contains c

/-- The tokens finished when the current one ends. -/
def LexMode.flush : LexMode → Option (List Flat)
  | .idle => some []
  | .slash => some [.tok (.punct '/')]
  | .comment => some []
  | .ident r => some [.tok (.ident r.reverse)]
  | .int v => some [.tok (.int v)]
  | .frac m k => if k = 0 then none else some [.tok (.float m (-(k : Int)))]
  | .expSign _ _ => none
  | .exp m k neg e d => if d then some [.tok (.float m ((if neg then -(e : Int) else e) - (k : Int)))] else none

/-- A character at the start of a token. -/
def lexStart (c : Char) : Option (LexMode × List Flat) :=
  if isBlankChar c then some (.idle, [])
  else if isIdentStart c then some (.ident [c], [])
  else if isDigitChar c then some (.int (c.toNat - 48), [])
  else if c = '/' then some (.slash, [])
  else match delimChar c with
    | some f => some (.idle, [f])
    | none => if isPunctChar c then some (.idle, [.tok (.punct c)]) else none

/-- End the current token and start a new one. -/
def lexFresh (m : LexMode) (c : Char) : Option (LexMode × List Flat) := do
  let l ← m.flush
  let (m', l') ← lexStart c
  return (m', l ++ l')

/-- One character. -/
def lexStep (m : LexMode) (c : Char) : Option (LexMode × List Flat) :=
  match m with
  | .idle => lexStart c
  | .comment => some (.comment, [])
  | .slash => if c = '/' then some (.comment, []) else if c = '*' then none else lexFresh m c
  | .ident r => if isIdentCont c then some (.ident (c :: r), []) else lexFresh m c
  | .int v =>
    if isDigitChar c then some (.int (10 * v + (c.toNat - 48)), [])
    else if c = '_' then some (.int v, [])
    else if c = '.' then some (.frac v 0, [])
    else if c = 'e' || c = 'E' then some (.expSign v 0, [])
    else if isIdentStart c then none
    else lexFresh m c
  | .frac v k =>
    if isDigitChar c then some (.frac (10 * v + (c.toNat - 48)) (k + 1), [])
    else if k = 0 then none
    else if c = '_' then some (.frac v k, [])
    else if c = 'e' || c = 'E' then some (.expSign v k, [])
    else if isIdentStart c then none
    else lexFresh m c
  | .expSign v k =>
    if c = '-' then some (.exp v k true 0 false, [])
    else if c = '+' then some (.exp v k false 0 false, [])
    else if isDigitChar c then some (.exp v k false (c.toNat - 48) true, [])
    else none
  | .exp v k neg e d =>
    if isDigitChar c then some (.exp v k neg (10 * e + (c.toNat - 48)) true, [])
    else if c = '_' then some (.exp v k neg e d, [])
    else if isIdentStart c then none
    else lexFresh m c

/-- The flat tokens of one line (no token of the modelled part contains a line break). -/
def lexFlat (m : LexMode) : Str → Option (List Flat)
  | [] => m.flush
  | c :: cs => do
    let (m', l) ← lexStep m c
    return l ++ (← lexFlat m' cs)

/-- Match up the delimiters; `stack` holds the groups that are open, `cur` the tokens of the innermost one, last first. -/
def treesOf (stack : List (Delim × List Tok)) (cur : List Tok) : List Flat → Option (List Tok)
  | [] => if stack.isEmpty then some cur.reverse else none
  | .tok t :: l => treesOf stack (t :: cur) l
  | .opn d :: l => treesOf ((d, cur) :: stack) [] l
  | .cls d :: l => match stack with
    | (d', out) :: stack => if d = d' then treesOf stack (.group d cur.reverse :: out) l else none
    | [] => none

/-- The token trees of a text given by its lines, `none` if it is outside the modelled part of the lexer. -/
def lex (lines : List Str) : Option (List Tok) := do
  let l ← lines.mapM (lexFlat .idle)
  treesOf [] [] l.flatten

end Diman
