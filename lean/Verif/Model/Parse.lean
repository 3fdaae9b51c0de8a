import Verif.Model.System
/-!
# Parsing
Models crates/diman_unit_system/src/parse/{mod.rs,attributes.rs}, on the token trees that `proc_macro` hands to the macro.

What is used of `syn` is modelled by its documented behaviour: `peek`, `parse` of identifiers and literals, `parenthesized!`,
`parse_terminated`, and that tokens left over in any group are an error (`ParseBuffer`'s `Drop` plus the final check in
`parse_macro_input!`). `none` is an error; which error is reported is not modelled. Spans and invisible groups are dropped.
The result keeps numbers and exponents as written (`Number`, `ExpSyn`); `readTemplates` then applies `Magnitude::from_f64` and
`read_exponent`, which the code does while parsing.
-/
namespace Diman

/-- The visible delimiters of a group. -/
inductive Delim where
  | paren | bracket | brace
deriving DecidableEq, Repr

/-- A token tree: identifier (raw identifiers are not modelled, see F26 in DESIGN.md), integer literal (its value), decimal literal `m * 10^e`, any other literal, one
punctuation character, or a group. -/
inductive Tok where
  | ident (s : Str)
  | int (v : Nat)
  | float (m : Nat) (e : Int)
  | lit
  | punct (c : Char)
  | group (d : Delim) (ts : List Tok)
deriving Repr

/-- syn's `accept_as_ident`: the words that are not accepted as identifiers. -/
def rustKeywords : List Str :=
  [str!"_", str!"abstract", str!"as", str!"async", str!"await", str!"become", str!"box", str!"break", str!"const", str!"continue",
   str!"crate", str!"do", str!"dyn", str!"else", str!"enum", str!"extern", str!"false", str!"final", str!"fn", str!"for", str!"if",
   str!"impl", str!"in", str!"let", str!"loop", str!"macro", str!"match", str!"mod", str!"move", str!"mut", str!"override",
   str!"priv", str!"pub", str!"ref", str!"return", str!"Self", str!"self", str!"static", str!"struct", str!"super", str!"trait",
   str!"true", str!"try", str!"type", str!"typeof", str!"unsafe", str!"unsized", str!"use", str!"virtual", str!"where",
   str!"while", str!"yield"]

/-- What a parser returns: a value and the remaining tokens, or an error. -/
notation:max "Parsed " α:max => Option (α × List Tok)

/-- syn `impl Parse for Ident` -/
def parseIdent : List Tok → Parsed Str
  | .ident s :: ts => if rustKeywords.contains s then none else some (s, ts)
  | _ => none

/-- syn `peek(Ident)` -/
def peekIdent (ts : List Tok) : Bool := (parseIdent ts).isSome

/-- A parsed `syn::Lit`; booleans, strings, characters and the like are `other`. -/
inductive Lit where
  | int (v : Int)
  | float (neg : Bool) (m : Nat) (e : Int)
  | other
deriving DecidableEq, Repr

/-- syn `impl Parse for Lit`: a literal token, `true`/`false`, or a minus sign followed by a numeric literal. -/
def parseLit : List Tok → Parsed Lit
  | .int v :: ts => some (.int v, ts)
  | .float m e :: ts => some (.float false m e, ts)
  | .lit :: ts => some (.other, ts)
  | .ident s :: ts => if s = str!"true" ∨ s = str!"false" then some (.other, ts) else none
  | .punct c :: .int v :: ts => if c = '-' then some (.int (-v), ts) else none
  | .punct c :: .float m e :: ts => if c = '-' then some (.float true m e, ts) else none
  | _ => none

/-- syn `peek(Lit)` -/
def peekLit (ts : List Tok) : Bool := (parseLit ts).isSome

/-- parse/mod.rs:46-49 `struct Number`, as written. -/
inductive Number where
  | int (v : Int)
  | float (neg : Bool) (m : Nat) (e : Int)
deriving DecidableEq, Repr

/-- parse/mod.rs:85-98 `impl Parse for Number`; an integer must fit `i64` (`base10_parse::<i64>`). -/
def parseNumber (ts : List Tok) : Parsed Number := do
  let (l, ts) ← parseLit ts
  match l with
  | .int v => (i64 v).map fun v => (.int v, ts)
  | .float neg m e => some (.float neg m e, ts)
  | .other => none

/-- parse/mod.rs:100-112 `impl Parse for Int` -/
def parseInt (ts : List Tok) : Parsed Int := do
  let (l, ts) ← parseLit ts
  match l with
  | .int v => (i64 v).map fun v => (v, ts)
  | _ => none

/-- The exact value of a number as written. -/
def Number.value : Number → ℚ
  | .int v => v
  | .float neg m e => (if neg then -1 else 1) * (m * (10 : ℚ) ^ e)

/-- parse/mod.rs:46-49, 85-98: the field `float`: `x as f64` of the integer, or `base10_parse::<f64>`, both correctly rounded. -/
def Number.toF64 : Number → Fl
  | .int v => f64Fmt.ofInt v
  | .float neg m e => .num neg (f64Fmt.round (m * (10 : ℚ) ^ e))

/-- parse/mod.rs:72-83 `Number::as_one` -/
def Number.isOne (n : Number) : Bool := n.toF64.feq (f64Fmt.ofInt 1)

/-- parse/mod.rs:114-119 `impl Parse for One` -/
def parseOne (ts : List Tok) : Parsed Unit := do
  let (n, ts) ← parseNumber ts
  if n.isOne then some ((), ts) else none

/-- parse/mod.rs:55-62 `struct Exponent`, as written: a numerator and perhaps a denominator. -/
structure ExpSyn where
  num : Int
  denom : Option Int
deriving DecidableEq, Repr

/-- parse/mod.rs:121-142 (feature `rational-dimensions`), 144-150 `impl Parse for Exponent` -/
def parseExponent (rational : Bool) (ts : List Tok) : Parsed ExpSyn :=
  if rational then
    if peekLit ts then do
      let (n, ts) ← parseInt ts
      some (⟨n, none⟩, ts)
    else match ts with
      | .group .paren c :: ts => do
        let (n, c) ← parseInt c
        match c with
        | .punct '/' :: c => do
          let (d, c) ← parseInt c
          if c.isEmpty then some (⟨n, some d⟩, ts) else none
        | _ => none
      | _ => none
  else do
    let (n, ts) ← parseInt ts
    some (⟨n, none⟩, ts)

/-- parse/mod.rs:152-164 `impl Parse for Factor<Magnitude>` -/
def parseMagnitudeAtom (ts : List Tok) : Parsed (Atom Number) :=
  if peekIdent ts then do
    let (x, ts) ← parseIdent ts
    some (.other x, ts)
  else if peekLit ts then do
    let (n, ts) ← parseNumber ts
    some (.concrete n, ts)
  else none

/-- parse/mod.rs:166-176 `impl Parse for DimensionFactor` -/
def parseDimensionAtom (ts : List Tok) : Parsed (Atom Unit) :=
  if peekLit ts then do
    let (_, ts) ← parseOne ts
    some (.concrete (), ts)
  else do
    let (x, ts) ← parseIdent ts
    some (.other x, ts)

/-- parse/mod.rs:326-341 `impl Parse for Operator` -/
def parseOperator (ts : List Tok) : Parsed Operator :=
  match ts with
  | .punct '*' :: ts => some (.mul, ts)
  | .punct '/' :: ts => some (.div, ts)
  | ts => if peekIdent ts then some (.mul, ts) else none

/-- Does the input end here or with `;`? (parse/mod.rs:364-367) -/
def atEnd : List Tok → Bool
  | [] => true
  | .punct c :: _ => c == ';'
  | _ => false

section
variable {T : Type} (atom : List Tok → Parsed T) (rational : Bool)

/- The recursion of the expression parser is bounded by a counter; `parseExprTop` starts it high enough (proved: `C05_iff`). -/
mutual
/-- parse/mod.rs:343-359 `impl Parse for Factor<T, E>` -/
def parseFactor : Nat → List Tok → Parsed (Factor T ExpSyn)
  | 0, _ => none
  | n + 1, ts =>
    match ts with
    | .group .paren c :: ts =>
      match parseExpr n c with
      | some (e, []) => some (.paren e, ts)
      | _ => none
    | ts => do
      let (v, ts) ← atom ts
      match ts with
      | .punct '^' :: ts => do
        let (x, ts) ← parseExponent rational ts
        some (.power v x, ts)
      | ts => some (.value v, ts)
/-- parse/mod.rs:364-375: the `while` loop -/
def parseLoop : Nat → Expr T ExpSyn → List Tok → Parsed (Expr T ExpSyn)
  | 0, _, _ => none
  | n + 1, lhs, ts =>
    if atEnd ts then some (lhs, ts)
    else do
      let (op, ts) ← parseOperator ts
      let (rhs, ts) ← parseFactor n ts
      parseLoop n (.binary lhs op rhs) ts
/-- parse/mod.rs:361-378 `impl Parse for Expr<T, E>` -/
def parseExpr : Nat → List Tok → Parsed (Expr T ExpSyn)
  | 0, _ => none
  | n + 1, ts => do
    let (f, ts) ← parseFactor n ts
    parseLoop n (.value f) ts
end

end

mutual
/-- The number of token trees, at all depths. -/
def Tok.size : Tok → Nat
  | .group _ ts => 1 + toksSize ts
  | _ => 1
/-- The number of token trees in a list, at all depths. -/
def toksSize : List Tok → Nat
  | [] => 0
  | t :: ts => t.size + toksSize ts
end

/-- `input.parse::<Expr<T, Exponent>>()` -/
def parseExprTop {T : Type} (atom : List Tok → Parsed T) (rational : Bool) (ts : List Tok) : Parsed (Expr T ExpSyn) :=
  parseExpr atom rational (2 * toksSize ts + 2) ts

/-- parse/mod.rs:207-216 `parse_annotation` -/
def parseAnnotation (ts : List Tok) : Parsed (Option Str) :=
  match ts with
  | .punct ':' :: ts => do
    let (x, ts) ← parseIdent ts
    some (some x, ts)
  | ts => some (none, ts)

/-- attributes.rs:26-33 `enum AttributeName` -/
inductive AttrName where
  | base | alias | symbol | metricPrefixes | prefix
deriving DecidableEq, Repr

/-- attributes.rs:14-20: the keywords -/
def AttrName.keyword : AttrName → Str
  | .base => str!"base"
  | .alias => str!"alias"
  | .symbol => str!"symbol"
  | .metricPrefixes => str!"metric_prefixes"
  | .prefix => str!"prefix"

/-- attributes.rs:35-39 `struct Attribute` -/
structure Attr where
  name : AttrName
  inner : Option (List Tok)

/-- attributes.rs:67-84: the attribute's name -/
def attrName (s : Str) : Option AttrName :=
  [AttrName.base, .alias, .symbol, .metricPrefixes, .prefix].find? fun a => a.keyword = s

/-- attributes.rs:63-92: the content of one `#[...]`; tokens left over are an error. -/
def parseAttribute (content : List Tok) : Option Attr :=
  match content with
  | .ident s :: rest => do
    let name ← attrName s
    match rest with
    | [] => some ⟨name, none⟩
    | [.group .paren inner] => some ⟨name, some inner⟩
    | _ => none
  | _ => none

/-- attributes.rs:58-95 `Attributes::parse_all` -/
def parseAttributes : List Tok → Parsed (List Attr)
  | .punct '#' :: .group .bracket c :: ts => do
    let a ← parseAttribute c
    let (l, ts) ← parseAttributes ts
    some (a :: l, ts)
  | .punct '#' :: _ => none
  | ts => some ([], ts)

/-- attributes.rs:97-102, 104-118: the attributes of a type, and the others (`partition` keeps the order). -/
def removeOfType (name : AttrName) (as : List Attr) : List Attr × List Attr := as.partition fun a => a.name = name

/-- syn `parse_terminated` applied to all of a buffer: items separated by `sep`, optionally also after the last. The counter bounds the
number of items. -/
def parseTerminated {α : Type} (item : List Tok → Parsed α) (sep : Char) : Nat → List Tok → Option (List α)
  | _, [] => some []
  | 0, _ => none
  | n + 1, ts => do
    let (a, ts) ← item ts
    match ts with
    | [] => some [a]
    | .punct c :: ts =>
      if c = sep then do
        let l ← parseTerminated item sep n ts
        some (a :: l)
      else none
    | _ => none

/-- attributes.rs:138-142 `inner_or_err` -/
def Attr.innerOrErr (a : Attr) : Option (List Tok) := a.inner

/-- attributes.rs:145-158 `impl FromAttribute for Vec<Alias>` -/
def aliasesFrom (a : Attr) : Option (List Str) := do
  let inner ← a.innerOrErr
  parseTerminated parseIdent ',' inner.length inner

/-- A single identifier; left-over tokens are an error. -/
def singleIdent (ts : List Tok) : Option Str :=
  match parseIdent ts with
  | some (x, []) => some x
  | _ => none

/-- attributes.rs:160-170 `impl FromAttribute for Symbol` -/
def symbolFrom (a : Attr) : Option Str := do
  let inner ← a.innerOrErr
  singleIdent inner

/-- attributes.rs:172-184 `impl FromAttribute for BaseAttribute` -/
def baseFrom (a : Attr) : Option Str := do
  let inner ← a.innerOrErr
  singleIdent inner

/-- prefixes.rs:38-55 `impl Parse for Prefix` -/
def parsePrefix : List Tok → Parsed Prefix
  | .ident s :: ts => (Prefix.all.find? fun p => p.keyword = s).map fun p => (p, ts)
  | _ => none

/-- attributes.rs:186-209 `impl FromAttribute for MetricPrefixes`: the skipped prefixes -/
def metricFrom (a : Attr) : Option (List Prefix) :=
  match a.inner with
  | none => some []
  | some [] => some []
  | some (.ident s :: rest) =>
    if s = str!"skip" then
      match rest with
      | .punct ':' :: rest => parseTerminated parsePrefix ',' rest.length rest
      | _ => none
    else none
  | some _ => none

/-- attributes.rs:211-224 `impl FromAttribute for ExplicitPrefixes` -/
def explicitFrom (a : Attr) : Option (List Prefix) := do
  let inner ← a.innerOrErr
  parseTerminated parsePrefix ',' inner.length inner

/-- attributes.rs:104-118 `remove_unique_of_type` on the attributes of the type. -/
def uniqueOf {α : Type} (get : Attr → Option α) (as : List Attr) : Option (Option α) :=
  match as with
  | [] => some none
  | [a] => do
    let x ← get a
    some (some x)
  | _ => none

/-- parse/mod.rs:242-299 `impl ParseWithAttributes for UnitTemplate` (after the keyword) -/
def parseUnit (rational : Bool) (attrs : List Attr) (ts : List Tok) : Parsed (UnitTemplate ExpSyn Number) := do
  let (name, ts) ← parseIdent ts
  let (annotation, ts) ← parseAnnotation ts
  let (bs, attrs) := removeOfType .base attrs
  let bases ← bs.mapM baseFrom
  let (definition, ts) ← (match ts, bases with
    | .punct '=' :: ts, [] => do
      let (e, ts) ← parseExprTop parseMagnitudeAtom rational ts
      some (Definition.expression e, ts)
    | .punct '=' :: _, _ => none
    | ts, [d] => some (Definition.base d, ts)
    | _, _ => none : Parsed (Definition ExpSyn Str Number))
  let (as, attrs) := removeOfType .alias attrs
  let aliases ← as.mapM aliasesFrom
  let (ss, attrs) := removeOfType .symbol attrs
  let symbol ← uniqueOf symbolFrom ss
  let (ms, attrs) := removeOfType .metricPrefixes attrs
  let metric ← uniqueOf metricFrom ms
  let (es, attrs) := removeOfType .prefix attrs
  let explicit ← es.mapM explicitFrom
  let prefixes := (match metric with
    | some skip => metricPrefixes skip
    | none => []) ++ explicit.flatten
  if attrs.isEmpty then
    some ({ name, symbol, aliases := aliases.flatten, prefixes, annotation, definition }, ts)
  else none

/-- parse/mod.rs:195-205 `impl Parse for Definition<(), One>`, parse/mod.rs:218-225 `impl Parse for DimensionEntry` (after the keyword) -/
def parseDimension (rational : Bool) (ts : List Tok) : Parsed (DimensionEntry ExpSyn) := do
  let (name, ts) ← parseIdent ts
  match ts with
  | .punct '=' :: ts => do
    let (e, ts) ← parseExprTop parseDimensionAtom rational ts
    some (⟨name, .expression e⟩, ts)
  | ts => some (⟨name, .base ()⟩, ts)

/-- parse/mod.rs:227-240 `impl Parse for ConstantEntry` (after the keyword) -/
def parseConstant (rational : Bool) (ts : List Tok) : Parsed (ConstantEntry ExpSyn Number) := do
  let (name, ts) ← parseIdent ts
  let (annotation, ts) ← parseAnnotation ts
  match ts with
  | .punct '=' :: ts => do
    let (rhs, ts) ← parseExprTop parseMagnitudeAtom rational ts
    some ({ name, rhs, annotation }, ts)
  | _ => none

/-- parse/mod.rs:64-70 `enum Entry` -/
inductive Entry where
  | quantityType (s : Str)
  | dimensionType (s : Str)
  | dimension (d : DimensionEntry ExpSyn)
  | unit (u : UnitTemplate ExpSyn Number)
  | constant (c : ConstantEntry ExpSyn Number)

/-- Attributes of statements other than `unit` are dropped unread, which is an error if they have arguments. -/
def droppable (attrs : List Attr) : Bool := attrs.all fun a => match a.inner with
  | none => true
  | some i => i.isEmpty

/-- parse/mod.rs:301-324 `impl Parse for Entry` -/
def parseEntry (rational : Bool) (ts : List Tok) : Parsed Entry := do
  let (attrs, ts) ← parseAttributes ts
  match ts with
  | .ident k :: ts =>
    if k = str!"quantity_type" then
      if droppable attrs then do
        let (x, ts) ← parseIdent ts
        some (.quantityType x, ts)
      else none
    else if k = str!"dimension_type" then
      if droppable attrs then do
        let (x, ts) ← parseIdent ts
        some (.dimensionType x, ts)
      else none
    else if k = str!"dimension" then
      if droppable attrs then do
        let (d, ts) ← parseDimension rational ts
        some (.dimension d, ts)
      else none
    else if k = str!"unit" then do
      let (u, ts) ← parseUnit rational attrs ts
      some (.unit u, ts)
    else if k = str!"constant" then
      if droppable attrs then do
        let (c, ts) ← parseConstant rational ts
        some (.constant c, ts)
      else none
    else none
  | _ => none

/-- parse/mod.rs:388-396: the statements of each kind, in order. -/
def collectEntries (l : List Entry) : UnresolvedTemplates ExpSyn Number where
  dimensionTypes := l.filterMap fun | .dimensionType s => some s | _ => none
  quantityTypes := l.filterMap fun | .quantityType s => some s | _ => none
  dimensions := l.filterMap fun | .dimension d => some d | _ => none
  units := l.filterMap fun | .unit u => some u | _ => none
  constants := l.filterMap fun | .constant c => some c | _ => none

/-- parse/mod.rs:380-405 `impl Parse for UnresolvedTemplates` on the whole input (`parse_macro_input!`, lib.rs:17). -/
def parseSystem (rational : Bool) (ts : List Tok) : Option (UnresolvedTemplates ExpSyn Number) := do
  let l ← parseTerminated (parseEntry rational) ';' ts.length ts
  some (collectEntries l)

/-! ## Numbers and exponents -/

/-- Which exponents a build reads: types/mod.rs:16-20 (`Exponent`), parse/mod.rs:178-186 (`read_exponent`). -/
class ReadExponent (E : Type) where
  rational : Bool
  read : ExpSyn → Option E

/-- parse/mod.rs:183-186 -/
instance : ReadExponent Int where
  rational := false
  read x := some x.num

/-- parse/mod.rs:178-181 -/
instance : ReadExponent Ratio where
  rational := true
  read x := Ratio.new x.num (x.denom.getD 1)

section
variable {E M : Type} [ReadExponent E] (mag : Number → M)

/-- parse/mod.rs:188-193 `parse_int_exponent_expr`, with `Magnitude::from_f64` (parse/mod.rs:158-159) as `mag`. -/
def readExpr {C D : Type} (f : C → D) (e : Expr (Atom C) ExpSyn) : Option (Expr (Atom D) E) :=
  (e.map (Atom.mapConcrete f)).mapExp ReadExponent.read

/-- The conversions inside a definition. -/
def readDefinition {B C D : Type} (f : C → D) : Definition ExpSyn B C → Option (Definition E B D)
  | .base b => some (.base b)
  | .expression e => (readExpr f e).map .expression

/-- The conversions in all statements; `none` is a panic (`Ratio::new`). -/
def readTemplates (t : UnresolvedTemplates ExpSyn Number) : Option (UnresolvedTemplates E M) := do
  let dimensions ← t.dimensions.mapM fun d => (readDefinition id d.rhs).map (DimensionEntry.mk d.name)
  let units ← t.units.mapM fun u => (readDefinition mag u.definition).map fun d =>
    { name := u.name, symbol := u.symbol, aliases := u.aliases, prefixes := u.prefixes, annotation := u.annotation, definition := d }
  let constants ← t.constants.mapM fun c => (readExpr mag c.rhs).map fun e => ⟨c.name, e, c.annotation⟩
  return { dimensionTypes := t.dimensionTypes, quantityTypes := t.quantityTypes, dimensions, units, constants }

/-- What the macro does with its input: a syntax error, a panic, or the definitions and the reported errors. -/
inductive MacroResult (α : Type) where
  | syntaxError
  | panic
  | done (a : α)

/-- lib.rs:13-26 `run_unit_system`, from the tokens to the definitions handed to code generation. -/
def unitSystem [Exponent E] [MagOps E M] (factor : Prefix → M) (ts : List Tok) : MacroResult (Defs E M × List Diag) :=
  match parseSystem (ReadExponent.rational E) ts with
  | none => .syntaxError
  | some t => match readTemplates (E := E) mag t with
    | none => .panic
    | some t => match runUnitSystem factor t with
      | none => .panic
      | some r => .done r

/-- `Magnitude::from_f64(factor.float)`, parse/mod.rs:158-159. -/
def Number.magnitude (n : Number) : Magnitude := Magnitude.fromF64 n.toF64
end

end Diman
