import Verif.Model.Exponent
/-!
# Definition expressions
Models crates/diman_unit_system/src/types/expression.rs.
-/
namespace Diman

/-- expression.rs:3-8 `enum Operator` -/
inductive Operator where
  | mul
  | div
deriving DecidableEq, Repr

mutual
/-- expression.rs:10-15, 28-34 `enum Expr`, `struct BinaryOperator` -/
inductive Expr (T E : Type) where
  | value (f : Factor T E)
  | binary (lhs : Expr T E) (op : Operator) (rhs : Factor T E)
/-- expression.rs:36-42 `enum Factor` -/
inductive Factor (T E : Type) where
  | value (v : T)
  | power (v : T) (e : E)
  | paren (e : Expr T E)
end

mutual
/-- expression.rs:51-66 `Expr::map` -/
def Expr.map {T T2 E : Type} (f : T → T2) : Expr T E → Expr T2 E
  | .value v => .value (v.map f)
  | .binary l o r => .binary (l.map f) o (r.map f)
/-- expression.rs:94-103 `Factor::map` -/
def Factor.map {T T2 E : Type} (f : T → T2) : Factor T E → Factor T2 E
  | .value v => .value (f v)
  | .power v e => .power (f v) e
  | .paren e => .paren (e.map f)
end

mutual
/-- expression.rs:51-66 `Expr::map` with a closure that can panic (`resolved[&ident]`, ident_storage.rs:130-138). -/
def Expr.mapM {T T2 E : Type} (f : T → Option T2) : Expr T E → Option (Expr T2 E)
  | .value v => do return .value (← v.mapM f)
  | .binary l o r => do return .binary (← l.mapM f) o (← r.mapM f)
/-- expression.rs:94-103 `Factor::map`, likewise -/
def Factor.mapM {T T2 E : Type} (f : T → Option T2) : Factor T E → Option (Factor T2 E)
  | .value v => do return .value (← f v)
  | .power v e => do return .power (← f v) e
  | .paren e => do return .paren (← e.mapM f)
end

mutual
/-- expression.rs:68-83 `Expr::map_exp` with a closure that can panic (`Ratio::new` in `read_exponent`). -/
def Expr.mapExp {T E E2 : Type} (f : E → Option E2) : Expr T E → Option (Expr T E2)
  | .value v => do return .value (← v.mapExp f)
  | .binary l o r => do return .binary (← l.mapExp f) o (← r.mapExp f)
/-- expression.rs:105-114 `Factor::map_exp`, likewise -/
def Factor.mapExp {T E E2 : Type} (f : E → Option E2) : Factor T E → Option (Factor T E2)
  | .value v => some (.value v)
  | .power v e => do return .power v (← f e)
  | .paren e => do return .paren (← e.mapExp f)
end

mutual
/-- expression.rs:85-90 `Expr::iter_vals` -/
def Expr.vals {T E : Type} : Expr T E → List T
  | .value v => v.vals
  | .binary l _ r => l.vals ++ r.vals
/-- expression.rs:116-122 `Factor::iter_vals` -/
def Factor.vals {T E : Type} : Factor T E → List T
  | .value v => [v]
  | .power v _ => [v]
  | .paren e => e.vals
end

/-- expression.rs:44-48 `trait MulDiv` (`*`, `/`, `pow`); `none` is a panic. -/
class MulDiv (E T : Type) where
  mul : T → T → Option T
  div : T → T → Option T
  pow : T → E → Option T

mutual
/-- expression.rs:125-139 `Expr::eval` -/
def Expr.eval {T E : Type} [MulDiv E T] : Expr T E → Option T
  | .value v => v.eval
  | .binary l o r => do
    let lhs ← l.eval
    let rhs ← r.eval
    match o with
    | .mul => MulDiv.mul E lhs rhs
    | .div => MulDiv.div E lhs rhs
/-- expression.rs:141-149 `Factor::eval` -/
def Factor.eval {T E : Type} [MulDiv E T] : Factor T E → Option T
  | .value v => some v
  | .power v e => MulDiv.pow v e
  | .paren e => e.eval
end

end Diman
