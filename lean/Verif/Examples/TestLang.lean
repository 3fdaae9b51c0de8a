import Verif.Model.Lexer
import Verif.Model.Text
import Verif.Model.CoreText
import Verif.Model.NumTraits
/-!
# Running the repository's tests on the model
An interpreter for the Rust that the tests of /repo/tests are written in. Everything that a test does with the generated code goes through
the model: the unit system is the verbatim text of the macro call, through lexer, parser and resolver; operators are looked up in the
generated table and checked against the operand types (with their references); functions are `Fn.sig` and `Fn.run`; text is
`debugFmt`, `serializeStr`, `deserializeStr`. `none` anywhere is a type error or a panic, and the test fails. This checks the model; no
theorem depends on it.
-/
namespace Diman.TestLang

/-- Expressions of the tests. -/
inductive TExpr (E : Type) where
  /-- a float literal -/
  | lit (s : Str)
  | var (x : Str)
  /-- a unit or constant -/
  | unit (name : Str)
  /-- `Vec2::new(...)` of glam -/
  | vec (s : Storage) (l : List Str)
  | ref (e : TExpr E)
  | mutRef (e : TExpr E)
  | deref (e : TExpr E)
  | bin (t : Trait) (a b : TExpr E)
  /-- `>=` -/
  | ge (a b : TExpr E)
  | gt (a b : TExpr E)
  | lt (a b : TExpr E)
  | call1 (f : Fn E) (a : TExpr E)
  | call2 (f : Fn E) (a b : TExpr E)
  | call3 (f : Fn E) (a b c : TExpr E)
  /-- the sum of an array, as a quantity of the dimension of its first item -/
  | sum4 (a b c d : TExpr E)
  | sum3 (a b c : TExpr E)
  /-- a method of `f32`/`f64` itself -/
  | float (f : Fl → Fl) (a : TExpr E)

/-- Statements of the tests. -/
inductive TStmt (E : Type) where
  | bind (x : Str) (e : TExpr E)
  /-- `let x: Dimension<storage> = e` -/
  | bindAs (x : Str) (dim : Str) (s : Storage) (e : TExpr E)
  | assign (t : Trait) (x : Str) (e : TExpr E)
  /-- `assert!`, `assert_eq!` -/
  | assert (e : TExpr E)
  /-- `assert_is_close` of tests/utils/mod.rs, for quantities and for floats -/
  | close (a b : TExpr E)
  | debug (e : TExpr E) (text : Str)
  | serialize (e : TExpr E) (text : Str)
  /-- `format!("{}", e)` of a plain number -/
  | printed (e : TExpr E) (text : Str)
  /-- `let x: Dimension<storage> = serde_yaml::from_str(text).unwrap()` -/
  | read (x : Str) (dim : Str) (s : Storage) (text : Str)
  /-- the same in a test that must panic -/
  | readFails (dim : Str) (s : Storage) (text : Str)

/-- A value with its type and how it is passed. -/
structure TVal (E : Type) where
  ref : RefKind
  ty : Ty E
  val : Val Fl Magnitude

section
variable {E : Type} [Exponent E] [FieldOps E] [ShowExponent E] [MagOps E Magnitude] [Prims Fl Magnitude] [TextPrims Fl Magnitude]

/-- The storage types the tests are built with. -/
def storages : List Storage := [.f32, .f64, .vec2, .dvec2, .vec3, .dvec3]

/-- Dimension and storage of a type. -/
def parts (n : Nat) : Ty E → Option (Storage × DimVal E)
  | .quantity s d => some (s, d)
  | .bare s => some (s, DimVal.none n)
  | _ => none

/-- An operator of the generated code: the first implementation whose operand types fit. -/
def genOp (n : Nat) (t : Trait) (a b : TVal E) : Option (TVal E) := do
  let (sl, dl) ← parts n a.ty
  let (sr, dr) ← parts n b.ty
  let i : Inst E := ⟨n, match a.ty with | .quantity _ d => d | _ => dr, dl, dr, sl, sr, match a.ty with | .quantity _ _ => sl | _ => sr⟩
  let o ← (iterNumericTraits storages).find? fun o => decide (o.name = t ∧ a.ref = o.lhs.ref ∧ b.ref = o.rhs.ref ∧
    o.lhsType i = some a.ty ∧ o.rhsType i = some b.ty)
  let s ← storageOut t (i.st o.storageTypes.1) (i.st o.storageTypes.2)
  let ty ← match t with
    | .add | .sub | .mul | .div => do
      let e ← o.outputDimension
      let d ← i.evalDim e
      some (.quantity s d)
    | .partialEq => some .bool
    | .partialOrd => some .ordering
    | _ => some a.ty
  let v ← o.run (i.st o.storageTypes.1) (i.st o.storageTypes.2) a.val b.val
  some ⟨if t.hasOutput then .value else a.ref, ty, v⟩

/-- A generated function. -/
def genCall (n : Nat) (f : Fn E) (args : List (TVal E)) : Option (TVal E) := do
  let ty ← f.sig n (args.map TVal.ty)
  let v ← f.run n (args.map TVal.ty) (args.map TVal.val)
  some ⟨.value, ty, v⟩

/-- An operator on plain floats. -/
def coreOp (t : Trait) (s : Storage) (a b : Val Fl Magnitude) : Option (TVal E) :=
  match a, b with
  | .bare x, .bare y => (rawOp Magnitude t s s x y).map fun o =>
    ⟨.value, match t with | .partialEq => .bool | .partialOrd => .ordering | _ => .bare s, o.val Magnitude⟩
  | _, _ => none

/-- Any operator. Between two references, comparison is core's, which compares the values. -/
def binop (n : Nat) (t : Trait) (a b : TVal E) : Option (TVal E) :=
  match t, a.ref, b.ref with
  | .partialEq, .ref, .ref => genOp n t { a with ref := .value } { b with ref := .value }
  | _, _, _ =>
    match a.ty, b.ty with
    | .unit _, _ | _, .unit _ | .runtimeUnit _, _ | _, .runtimeUnit _ =>
      match t with
      | .mul => genCall n .unitMul [a, b]
      | .div => genCall n .unitDiv [a, b]
      | _ => none
    | .bare s, .bare s' => if s = s' then coreOp t s a.val b.val else none
    | _, _ => genOp n t a b

variable (defs : Defs E Magnitude) (t : FloatTy)

/-- The dimension an alias stands for. -/
def dimNamed (name : Str) : Option (DimVal E) := do
  let d ← defs.dimensions.find? fun d => d.name = name
  dimensionExpr defs.baseDimensions d.dims

/-- A unit or constant by name. -/
def unitNamed (name : Str) : Option (TVal E) :=
  match defs.units.find? fun u => u.name = name with
  | some u => (dimensionExpr defs.baseDimensions u.dims).map fun d => ⟨.value, .unit d, .unit u.mag⟩
  | none => match defs.constants.find? fun c => c.name = name with
    | some c => (dimensionExpr defs.baseDimensions c.dims).map fun d => ⟨.value, .unit d, .unit c.mag⟩
    | none => none

/-- The value of an expression. -/
def TExpr.eval (env : List (Str × TVal E)) : TExpr E → Option (TVal E)
  | .lit s => (coreText.parseF t s).map fun x => ⟨.value, .bare t.storage, .bare [x]⟩
  | .var x => (env.find? fun p => p.1 = x).map Prod.snd
  | .unit name => unitNamed defs name
  | .vec s l => (l.mapM (coreText.parseF s.base)).map fun xs => ⟨.value, .bare s, .bare xs⟩
  | .ref e => (e.eval env).map fun v => { v with ref := .ref }
  | .mutRef e => (e.eval env).map fun v => { v with ref := .mutRef }
  | .deref e => (e.eval env).map fun v => { v with ref := .value }
  | .bin t a b => (a.eval env).bind fun a => (b.eval env).bind fun b => binop defs.baseDimensions.length t a b
  | .ge a b => (a.eval env).bind fun a => (b.eval env).bind fun b =>
    (binop defs.baseDimensions.length .partialOrd a b).map fun v =>
      ⟨.value, .bool, .bool (v.val == .ordering (some .gt) || v.val == .ordering (some .eq))⟩
  | .gt a b => (a.eval env).bind fun a => (b.eval env).bind fun b =>
    (binop defs.baseDimensions.length .partialOrd a b).map fun v => ⟨.value, .bool, .bool (v.val == .ordering (some .gt))⟩
  | .lt a b => (a.eval env).bind fun a => (b.eval env).bind fun b =>
    (binop defs.baseDimensions.length .partialOrd a b).map fun v => ⟨.value, .bool, .bool (v.val == .ordering (some .lt))⟩
  | .call1 f a => (a.eval env).bind fun a => genCall defs.baseDimensions.length f [a]
  | .call2 f a b => (a.eval env).bind fun a => (b.eval env).bind fun b => genCall defs.baseDimensions.length f [a, b]
  | .call3 f a b c => (a.eval env).bind fun a => (b.eval env).bind fun b => (c.eval env).bind fun c =>
    genCall defs.baseDimensions.length f [a, b, c]
  | .sum4 a b c d => (a.eval env).bind fun a => (b.eval env).bind fun b => (c.eval env).bind fun c => (d.eval env).bind fun d =>
    match a.ty with
    | .quantity s dim => genCall defs.baseDimensions.length (.sum s dim) [a, b, c, d]
    | _ => none
  | .sum3 a b c => (a.eval env).bind fun a => (b.eval env).bind fun b => (c.eval env).bind fun c =>
    match a.ty with
    | .quantity s dim => genCall defs.baseDimensions.length (.sum s dim) [a, b, c]
    | _ => none
  | .float f a => (a.eval env).bind fun a =>
    match a.ty, a.val with
    | .bare s, .bare [x] => some ⟨.value, .bare s, .bare [f x]⟩
    | _, _ => none

/-- `f32::EPSILON`, `f64::EPSILON` -/
def epsilon : FloatTy → Fl
  | .f32 => .num false ((127 - 23) * 2 ^ 23)
  | .f64 => .num false ((1023 - 52) * 2 ^ 52)

/-- A statement: the new variables, `none` if an assertion fails. -/
def TStmt.exec (env : List (Str × TVal E)) : TStmt E → Option (List (Str × TVal E))
  | .bind x e => (e.eval defs t env).map fun v => (x, v) :: env
  | .bindAs x dim s e => do
    let v ← e.eval defs t env
    let d ← dimNamed defs dim
    if v.ty = .quantity s d then some ((x, v) :: env) else none
  | .assign tr x e => do
    let v ← e.eval defs t env
    let (_, u) ← env.find? fun p => p.1 = x
    let w ← binop defs.baseDimensions.length tr u v
    some ((x, w) :: env)
  | .assert e => do
    let v ← e.eval defs t env
    if v.val = .bool true then some env else none
  | .close a b => do
    let a ← a.eval defs t env
    let b ← b.eval defs t env
    let n := defs.baseDimensions.length
    if a.ty = b.ty then do
      let d ← binop n .sub a b
      match d.ty with
      | .quantity _ _ => do
        let d ← genCall n .abs [d]
        let d ← genCall n .valueUnchecked [d]
        match d.val with
        | .bare [x] => if x.lt (epsilon t) then some env else none
        | _ => none
      | .bare _ => match d.val with
        | .bare [x] => if x.abs.lt (epsilon t) then some env else none
        | _ => none
      | _ => none
    else none
  | .debug e text => do
    let v ← e.eval defs t env
    match v.ty, v.val with
    | .quantity s d, .quantity r => if debugFmt Fl defs d (showRaw Magnitude s r) = some text then some env else none
    | _, _ => none
  | .printed e text => do
    let v ← e.eval defs t env
    match v.ty, v.val with
    | .bare s, .bare [x] => if coreText.showF s.base x = text then some env else none
    | _, _ => none
  | .serialize e text => do
    let v ← e.eval defs t env
    match v.ty, v.val with
    | .quantity s d, .quantity r => if serializeStr Magnitude defs s d r = some text then some env else none
    | _, _ => none
  | .read x dim s text => do
    let d ← dimNamed defs dim
    match deserializeStr Magnitude defs s d text with
    | some (.ok r) => some ((x, ⟨.value, .quantity s d, .quantity r⟩) :: env)
    | _ => none
  | .readFails dim s text => do
    let d ← dimNamed defs dim
    match deserializeStr (K := Fl) Magnitude defs s d text with
    | some .error => some env
    | _ => none

/-- A whole test. -/
def passes (body : List (TStmt E)) : Bool := (body.foldlM (TStmt.exec defs t) []).isSome
end

/-! ## The platform -/

/-- The square root of a positive rational to 600 binary digits, made odd in the last place if it is not exact, so that rounding it
gives the correctly rounded root. -/
def ratRoot (q : ℚ) : ℚ :=
  let a := (q * 4 ^ 600).floor.toNat
  let r := a.sqrt
  if (r * r : Nat) = q * 4 ^ 600 then mkRat r (2 ^ 600) else mkRat (2 * r + 1) (2 ^ 601)

/-- Functions of the platform: `powi` of compiler-rt; correctly rounded square roots; the others only where their result is
exact (cube roots of cubes below 100, logarithms of powers of two), which is where the tests use them, and where every library gives that
result. -/
def platform : PlatformFns where
  lib := rtLib fun x _ => x
  powi t x i := powiCompilerRt t.fmt x i
  sqrt t
    | .num false n => .num false (t.fmt.round (ratRoot (t.fmt.mag n)))
    | _ => .nan
  cbrt t
    | .num false n => match (List.range 100).find? fun k => t.fmt.mag n = (k ^ 3 : Nat) with
      | some k => t.fmt.ofInt k
      | none => .nan
    | _ => .nan
  fn f t x := match f, x with
    | .log2, .num false n => if 0 < n ∧ t.fmt.mag n = pow2 (log2 (t.fmt.mag n)) then t.fmt.ofInt (log2 (t.fmt.mag n)) else .nan
    | _, _ => .nan

/-- `f32::round`, `f64::round` of a positive number: halves away from zero. -/
def roundFloat (t : FloatTy) : Fl → Fl
  | .num s n => .num s (t.fmt.round ((t.fmt.mag n + 1 / 2).floor.toNat : Nat))
  | .nan => .nan

/-- The names of the tests that fail, for a macro argument given by its lines; `none` if the macro reports an error. Integer exponents. -/
def failing (lines : List Str) (tests : List (Str × FloatTy × List (TStmt Int))) : Option (List Str) :=
  letI := magOpsInt platform.lib; letI := softPrims platform; letI := softText coreText
  match lex lines with
  | none => none
  | some ts => match unitSystem (E := Int) Number.magnitude Prefix.factor ts with
    | .done (defs, []) => some ((tests.filter fun x => !passes defs x.2.1 x.2.2).map Prod.fst)
    | _ => none

/-- The same with rational exponents. -/
def failingRational (lines : List Str) (tests : List (Str × FloatTy × List (TStmt Ratio))) : Option (List Str) :=
  letI := magOpsRatio platform.lib; letI := softPrims platform; letI := softText coreText
  match lex lines with
  | none => none
  | some ts => match unitSystem (E := Ratio) Number.magnitude Prefix.factor ts with
    | .done (defs, []) => some ((tests.filter fun x => !passes defs x.2.1 x.2.2).map Prod.fst)
    | _ => none

end Diman.TestLang
