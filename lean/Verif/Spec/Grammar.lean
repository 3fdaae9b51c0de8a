import Verif.Model.Parse
import Mathlib.Tactic
/-!
# The grammar of `unit_system!`
How statements and expressions are written as tokens, as relations between what is meant and token sequences. No parsing here.
-/
namespace Diman

/-- The words that are no identifiers, as in the Rust reference (edition 2021), with `_` and `box`. -/
def reservedWords : List Str :=
  -- strict keywords
  [str!"as", str!"break", str!"const", str!"continue", str!"crate", str!"else", str!"enum", str!"extern", str!"false", str!"fn", str!"for", str!"if",
   str!"impl", str!"in", str!"let", str!"loop", str!"match", str!"mod", str!"move", str!"mut", str!"pub", str!"ref", str!"return", str!"self", str!"Self",
   str!"static", str!"struct", str!"super", str!"trait", str!"true", str!"type", str!"unsafe", str!"use", str!"where", str!"while"] ++
  [str!"async", str!"await", str!"dyn"] ++
  -- reserved keywords
  [str!"abstract", str!"become", str!"box", str!"do", str!"final", str!"macro", str!"override", str!"priv", str!"typeof", str!"unsized", str!"virtual",
   str!"yield"] ++ [str!"try"] ++
  -- the wildcard
  [str!"_"]

/-- An identifier that is not a Rust keyword. -/
def IsIdent (s : Str) : Prop := s ∉ reservedWords

/-- An integer in the range of `i64`, with an optional minus sign. -/
def WrittenInt (n : Int) (ts : List Tok) : Prop :=
  -2 ^ 63 ≤ n ∧ n < 2 ^ 63 ∧ ∃ v : Nat, (n = v ∧ ts = [.int v]) ∨ (n = -v ∧ ts = [.punct '-', .int v])

/-- A number: an integer or a decimal literal, with an optional minus sign. -/
def WrittenNumber : Number → List Tok → Prop
  | .int n, ts => WrittenInt n ts
  | .float neg m e, ts => ts = if neg then [.punct '-', .float m e] else [.float m e]

/-- An exponent: an integer, or with rational exponents also `(n / d)`. -/
def WrittenExponentTokens (rational : Bool) (x : ExpSyn) (ts : List Tok) : Prop :=
  match x.denom with
  | none => WrittenInt x.num ts
  | some d => rational = true ∧ ∃ tn td, WrittenInt x.num tn ∧ WrittenInt d td ∧ ts = [.group .paren (tn ++ .punct '/' :: td)]

/-- A factor of a unit or constant: an identifier or a number. -/
def WrittenAtom : Atom Number → List Tok → Prop
  | .other x, ts => IsIdent x ∧ ts = [.ident x]
  | .concrete n, ts => WrittenNumber n ts

/-- A factor of a dimension: an identifier, or a number whose double is `1.0`. -/
def WrittenDimensionAtom : Atom Unit → List Tok → Prop
  | .other x, ts => IsIdent x ∧ ts = [.ident x]
  | .concrete _, ts => ∃ n, WrittenNumber n ts ∧ n.toF64 = .num false (1023 * 2 ^ 52)

/-- `*`, `/`, or nothing before an identifier. -/
def WrittenOperator (o : Operator) (ts next : List Tok) : Prop :=
  (o = .mul ∧ ts = [.punct '*']) ∨ (o = .div ∧ ts = [.punct '/']) ∨ (o = .mul ∧ ts = [] ∧ ∃ x l, next = .ident x :: l)

section
variable {T : Type} (A : T → List Tok → Prop) (rational : Bool)
mutual
/-- Factors: an atom, an atom with an exponent, or an expression in parentheses. -/
def WrittenFactor : Factor T ExpSyn → List Tok → Prop
  | .value a, ts => A a ts
  | .power a x, ts => ∃ ta tx, A a ta ∧ WrittenExponentTokens rational x tx ∧ ts = ta ++ .punct '^' :: tx
  | .paren e, ts => ∃ c, WrittenExpr e c ∧ ts = [.group .paren c]
/-- Expressions: factors joined by operators, grouped to the left. -/
def WrittenExpr : Expr T ExpSyn → List Tok → Prop
  | .value f, ts => WrittenFactor f ts
  | .binary l o r, ts => ∃ tl tp tr, WrittenExpr l tl ∧ WrittenFactor r tr ∧ WrittenOperator o tp tr ∧ ts = tl ++ tp ++ tr
end
end

/-! ### The language, over tokens alone -/

mutual
/-- A factor: an atom, an atom `^` exponent, or a parenthesised expression. `L` is the language of atoms. -/
inductive FactorSentence (L : List Tok → Prop) (rational : Bool) : List Tok → Prop
  | atom {ts} (h : L ts) : FactorSentence L rational ts
  | power {ta tx} (x : ExpSyn) (h : L ta) (hx : WrittenExponentTokens rational x tx) : FactorSentence L rational (ta ++ .punct '^' :: tx)
  | paren {c} (h : ExprSentence L rational c) : FactorSentence L rational [.group .paren c]
/-- An expression: a factor, followed by any number of `* factor`, `/ factor`, or factors that begin with an identifier. -/
inductive ExprSentence (L : List Tok → Prop) (rational : Bool) : List Tok → Prop
  | factor {ts} (h : FactorSentence L rational ts) : ExprSentence L rational ts
  | mul {l r} (hl : ExprSentence L rational l) (hr : FactorSentence L rational r) : ExprSentence L rational (l ++ .punct '*' :: r)
  | div {l r} (hl : ExprSentence L rational l) (hr : FactorSentence L rational r) : ExprSentence L rational (l ++ .punct '/' :: r)
  | juxtapose {l x r} (hl : ExprSentence L rational l) (hr : FactorSentence L rational (.ident x :: r)) :
    ExprSentence L rational (l ++ .ident x :: r)
end

/-! ### Printing -/

/-- An integer with its sign. -/
def printInt (n : Int) : List Tok := if n < 0 then [.punct '-', .int n.natAbs] else [.int n.natAbs]

/-- A number. -/
def printNumber : Number → List Tok
  | .int n => printInt n
  | .float neg m e => if neg then [.punct '-', .float m e] else [.float m e]

/-- An exponent. -/
def printExponent (x : ExpSyn) : List Tok :=
  match x.denom with
  | none => printInt x.num
  | some d => [.group .paren (printInt x.num ++ .punct '/' :: printInt d)]

/-- An atom of a unit or constant definition. -/
def printAtom : Atom Number → List Tok
  | .other x => [.ident x]
  | .concrete n => printNumber n

/-- An atom of a dimension definition. -/
def printDimensionAtom : Atom Unit → List Tok
  | .other x => [.ident x]
  | .concrete _ => [.int 1]

section
variable {T : Type} (pr : T → List Tok)
mutual
/-- A factor. -/
def printFactor : Factor T ExpSyn → List Tok
  | .value a => pr a
  | .power a x => pr a ++ .punct '^' :: printExponent x
  | .paren e => [.group .paren (printExpr e)]
/-- An expression, without any parentheses that are not in it. -/
def printExpr : Expr T ExpSyn → List Tok
  | .value f => printFactor f
  | .binary l .mul r => printExpr l ++ .punct '*' :: printFactor r
  | .binary l .div r => printExpr l ++ .punct '/' :: printFactor r
end
end

/-- The integer fits 64 bits. -/
def FitsI64 (n : Int) : Prop := -2 ^ 63 ≤ n ∧ n < 2 ^ 63

/-- Identifiers are identifiers and integers fit. -/
def AtomOk : Atom Number → Prop
  | .other x => IsIdent x
  | .concrete (.int n) => FitsI64 n
  | .concrete (.float _ _ _) => True

/-- Identifiers are identifiers. -/
def DimensionAtomOk : Atom Unit → Prop
  | .other x => IsIdent x
  | .concrete _ => True

/-- The integers fit, and a denominator only with rational exponents. -/
def ExponentOk (rational : Bool) (x : ExpSyn) : Prop :=
  FitsI64 x.num ∧ ∀ d, x.denom = some d → FitsI64 d ∧ rational = true

section
variable {T : Type} (ok : T → Prop) (rational : Bool)
mutual
/-- Every atom and exponent in the factor can be written. -/
def FactorOk : Factor T ExpSyn → Prop
  | .value a => ok a
  | .power a x => ok a ∧ ExponentOk rational x
  | .paren e => ExprOk e
/-- Every atom and exponent in the expression can be written. -/
def ExprOk : Expr T ExpSyn → Prop
  | .value f => FactorOk f
  | .binary l _ r => ExprOk l ∧ FactorOk r
end
end

/-- Items separated by a punctuation character, which may also follow the last. -/
def Separated {α : Type} (S : α → List Tok → Prop) (sep : Char) : List α → List Tok → Prop
  | [], ts => ts = []
  | a :: l, ts => ∃ ta tl, S a ta ∧ Separated S sep l tl ∧ (ts = ta ++ .punct sep :: tl ∨ (l = [] ∧ ts = ta))

/-- Optional `: Annotation`. -/
def WrittenAnnotation : Option Str → List Tok → Prop
  | none, ts => ts = []
  | some x, ts => IsIdent x ∧ ts = [.punct ':', .ident x]

/-- The attributes of unit statements. -/
inductive AttrForm where
  | base (dimension : Str)
  | alias (names : List Str)
  | symbol (s : Str)
  | metricPrefixes (skip : List Prefix)
  | prefix (ps : List Prefix)

/-- One identifier. -/
def WrittenIdent (x : Str) (ts : List Tok) : Prop := IsIdent x ∧ ts = [.ident x]

/-- One prefix. -/
def WrittenPrefix (p : Prefix) (ts : List Tok) : Prop := ts = [.ident p.keyword]

/-- What stands between the brackets of `#[...]`. -/
def WrittenAttr : AttrForm → List Tok → Prop
  | .base d, ts => IsIdent d ∧ ts = [.ident (str!"base"), .group .paren [.ident d]]
  | .alias names, ts => ∃ c, Separated WrittenIdent ',' names c ∧ ts = [.ident (str!"alias"), .group .paren c]
  | .symbol s, ts => IsIdent s ∧ ts = [.ident (str!"symbol"), .group .paren [.ident s]]
  | .metricPrefixes skip, ts =>
    (skip = [] ∧ (ts = [.ident (str!"metric_prefixes")] ∨ ts = [.ident (str!"metric_prefixes"), .group .paren []])) ∨
    ∃ c, Separated WrittenPrefix ',' skip c ∧
      ts = [.ident (str!"metric_prefixes"), .group .paren (.ident (str!"skip") :: .punct ':' :: c)]
  | .prefix ps, ts => ∃ c, Separated WrittenPrefix ',' ps c ∧ ts = [.ident (str!"prefix"), .group .paren c]

/-- A sequence of attributes. -/
def WrittenAttrs {α : Type} (S : α → List Tok → Prop) : List α → List Tok → Prop
  | [], ts => ts = []
  | a :: l, ts => ∃ c tl, S a c ∧ WrittenAttrs S l tl ∧ ts = .punct '#' :: .group .bracket c :: tl

/-- The five attribute names. -/
def attributeNames : List Str := [str!"base", str!"alias", str!"symbol", str!"metric_prefixes", str!"prefix"]

/-- An attribute without arguments. -/
def WrittenBareAttr (name : Str) (ts : List Tok) : Prop :=
  name ∈ attributeNames ∧ (ts = [.ident name] ∨ ts = [.ident name, .group .paren []])

namespace AttrForm
/-- The base dimensions named by attributes. -/
def bases (as : List AttrForm) : List Str := as.filterMap fun | .base d => some d | _ => none
/-- The symbols given by attributes. -/
def symbols (as : List AttrForm) : List Str := as.filterMap fun | .symbol s => some s | _ => none
/-- The aliases given by attributes. -/
def aliases (as : List AttrForm) : List Str := as.flatMap fun | .alias l => l | _ => []
/-- The skip lists of the `metric_prefixes` attributes. -/
def metrics (as : List AttrForm) : List (List Prefix) := as.filterMap fun | .metricPrefixes l => some l | _ => none
/-- The prefixes given one by one. -/
def explicit (as : List AttrForm) : List Prefix := as.flatMap fun | .prefix l => l | _ => []
end AttrForm

/-- All statements but `unit` may carry attributes without arguments, which mean nothing. -/
def Plain (body ts : List Tok) : Prop := ∃ names ta, WrittenAttrs WrittenBareAttr names ta ∧ ts = ta ++ body

/-- How a unit statement is written. -/
def WrittenUnit (rational : Bool) (u : UnitTemplate ExpSyn Number) (ts : List Tok) : Prop :=
  ∃ as ta tn td, WrittenAttrs WrittenAttr as ta ∧ IsIdent u.name ∧ WrittenAnnotation u.annotation tn ∧
    ts = ta ++ .ident (str!"unit") :: .ident u.name :: (tn ++ td) ∧
    u.aliases = AttrForm.aliases as ∧
    AttrForm.symbols as = u.symbol.toList ∧
    (∃ metric : Option (List Prefix), AttrForm.metrics as = metric.toList ∧
      u.prefixes = (match metric with | some skip => Prefix.all.filter (· ∉ skip) | none => []) ++ AttrForm.explicit as) ∧
    match u.definition with
    | .base d => AttrForm.bases as = [d] ∧ td = []
    | .expression e => AttrForm.bases as = [] ∧ ∃ te, WrittenExpr WrittenAtom rational e te ∧ td = .punct '=' :: te

/-- How a statement is written. -/
def WrittenEntry (rational : Bool) : Entry → List Tok → Prop
  | .quantityType x, ts => IsIdent x ∧ Plain [.ident (str!"quantity_type"), .ident x] ts
  | .dimensionType x, ts => IsIdent x ∧ Plain [.ident (str!"dimension_type"), .ident x] ts
  | .dimension d, ts => IsIdent d.name ∧ ∃ td, Plain (.ident (str!"dimension") :: .ident d.name :: td) ts ∧
    match d.rhs with
    | .base _ => td = []
    | .expression e => ∃ te, WrittenExpr WrittenDimensionAtom rational e te ∧ td = .punct '=' :: te
  | .unit u, ts => WrittenUnit rational u ts
  | .constant c, ts => IsIdent c.name ∧ ∃ tn te, WrittenAnnotation c.annotation tn ∧ WrittenExpr WrittenAtom rational c.rhs te ∧
    Plain (.ident (str!"constant") :: .ident c.name :: (tn ++ .punct '=' :: te)) ts

/-- The statements of a system by kind, each kind in source order. -/
structure Collects (l : List Entry) (t : UnresolvedTemplates ExpSyn Number) : Prop where
  dimensionTypes : (l.filterMap fun | .dimensionType s => some s | _ => none) = t.dimensionTypes
  quantityTypes : (l.filterMap fun | .quantityType s => some s | _ => none) = t.quantityTypes
  dimensions : (l.filterMap fun | .dimension d => some d | _ => none) = t.dimensions
  units : (l.filterMap fun | .unit u => some u | _ => none) = t.units
  constants : (l.filterMap fun | .constant c => some c | _ => none) = t.constants

/-! ### Printing statements -/

/-- Items each followed by a separator. -/
def printTerminated {α : Type} (pr : α → List Tok) (sep : Char) (l : List α) : List Tok := l.flatMap fun a => pr a ++ [.punct sep]

/-- `#[...]` -/
def printAttr (content : List Tok) : List Tok := [.punct '#', .group .bracket content]

/-- Optional annotation. -/
def printAnnotation : Option Str → List Tok
  | none => []
  | some x => [.punct ':', .ident x]

/-- A unit with all its attributes, the prefixes listed one by one. -/
def printUnit (u : UnitTemplate ExpSyn Number) : List Tok :=
  (match u.definition with
    | .base d => printAttr [.ident (str!"base"), .group .paren [.ident d]]
    | .expression _ => []) ++
  (match u.symbol with
    | some s => printAttr [.ident (str!"symbol"), .group .paren [.ident s]]
    | none => []) ++
  printAttr [.ident (str!"alias"), .group .paren (printTerminated (fun x => [.ident x]) ',' u.aliases)] ++
  printAttr [.ident (str!"prefix"), .group .paren (printTerminated (fun p : Prefix => [.ident p.keyword]) ',' u.prefixes)] ++
  .ident (str!"unit") :: .ident u.name :: (printAnnotation u.annotation ++
    match u.definition with
    | .base _ => []
    | .expression e => .punct '=' :: printExpr printAtom e)

/-- A statement. -/
def printEntry : Entry → List Tok
  | .quantityType x => [.ident (str!"quantity_type"), .ident x]
  | .dimensionType x => [.ident (str!"dimension_type"), .ident x]
  | .dimension d => .ident (str!"dimension") :: .ident d.name :: (match d.rhs with
    | .base _ => []
    | .expression e => .punct '=' :: printExpr printDimensionAtom e)
  | .unit u => printUnit u
  | .constant c => .ident (str!"constant") :: .ident c.name :: (printAnnotation c.annotation ++ .punct '=' :: printExpr printAtom c.rhs)

/-- A system. -/
def printSystem (l : List Entry) : List Tok := printTerminated printEntry ';' l

/-- The names, numbers and exponents in the statement can be written. -/
def EntryOk (rational : Bool) : Entry → Prop
  | .quantityType x => IsIdent x
  | .dimensionType x => IsIdent x
  | .dimension d => IsIdent d.name ∧ match d.rhs with
    | .base _ => True
    | .expression e => ExprOk DimensionAtomOk rational e
  | .unit u => IsIdent u.name ∧ (∀ x, u.symbol = some x → IsIdent x) ∧ (∀ x ∈ u.aliases, IsIdent x) ∧
    (∀ x, u.annotation = some x → IsIdent x) ∧ match u.definition with
    | .base d => IsIdent d
    | .expression e => ExprOk AtomOk rational e
  | .constant c => IsIdent c.name ∧ (∀ x, c.annotation = some x → IsIdent x) ∧ ExprOk AtomOk rational c.rhs

end Diman
