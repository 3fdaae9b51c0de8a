import Verif.Spec.Grammar
/-!
# Rust's scoping rules, for one module and its direct submodules
As in the Rust reference (Namespaces; Use declarations; Items): every module binds names separately in the type and in the value
namespace; a `use` declaration binds a name in every namespace in which the target is bound, and must bind at least one; a module
binds a name at most once per namespace; children may import private names of their parent; struct fields are distinct; names are not
keywords. Glob imports (which never conflict), macros, lifetimes and labels are left out.
-/
namespace Diman

/-- The two namespaces that matter here. -/
inductive Ns where
  | type | value
deriving DecidableEq, Repr

/-- An item of a module. `T` is what names stand for. -/
inductive ScopeItem (T : Type) where
  /-- A struct, type alias, constant, function, module, or `use` of a path into another crate: binds `name` in the namespaces `ns`. -/
  | binds (isPub : Bool) (ns : List Ns) (name : Str) (what : T)
  /-- `use super::name;` -/
  | useSuper (name : Str)
  /-- `pub use child::name;` -/
  | reexport (child name : Str)
deriving DecidableEq

/-- A name that is used in a module, in which namespace, and what it has to stand for. -/
structure ScopeRef (T : Type) where
  ns : Ns
  name : Str
  what : T
deriving DecidableEq

/-- A module without submodules. -/
structure ScopeModule (T : Type) where
  name : Str
  items : List (ScopeItem T)
  refs : List (ScopeRef T)
deriving DecidableEq

/-- A module together with its submodules. `fields` are the field names of the structs it declares. -/
structure ScopeTree (T : Type) where
  root : ScopeModule T
  children : List (ScopeModule T)
  fields : List (List Str)
deriving DecidableEq

/-- A name bound in a namespace, and what it stands for. -/
structure Bound (T : Type) where
  isPub : Bool
  ns : Ns
  name : Str
  what : T
deriving DecidableEq

namespace ScopeTree
variable {T : Type}

/-- What a module defines itself. -/
def direct (items : List (ScopeItem T)) : List (Bound T) :=
  items.flatMap fun i => match i with
    | .binds p ns n w => ns.map fun s => ⟨p, s, n, w⟩
    | _ => []

/-- What `pub use child::name` binds. -/
def reexported (t : ScopeTree T) (child name : Str) : List (Bound T) :=
  (t.children.filter fun m => m.name = child).flatMap fun m =>
    (direct m.items).filter fun b => b.isPub && decide (b.name = name)

/-- What the root module binds. -/
def rootBindings (t : ScopeTree T) : List (Bound T) :=
  t.root.items.flatMap fun i => match i with
    | .binds p ns n w => ns.map fun s => ⟨p, s, n, w⟩
    | .reexport c n => t.reexported c n
    | .useSuper _ => []

/-- What `use super::name` binds (privately). -/
def imported (t : ScopeTree T) (name : Str) : List (Bound T) :=
  (t.rootBindings.filter fun b => b.name = name).map fun b => { b with isPub := false }

/-- What a submodule binds. -/
def childBindings (t : ScopeTree T) (m : ScopeModule T) : List (Bound T) :=
  m.items.flatMap fun i => match i with
    | .binds p ns n w => ns.map fun s => ⟨p, s, n, w⟩
    | .useSuper n => t.imported n
    | .reexport _ _ => []

/-- No name is bound twice in a namespace. -/
def Distinct (l : List (Bound T)) : Prop := (l.map fun b => (b.ns, b.name)).Nodup

/-- `name` stands for `what` in namespace `ns`. -/
def Denotes (l : List (Bound T)) (ns : Ns) (name : Str) (what : T) : Prop :=
  ∃ p, (⟨p, ns, name, what⟩ : Bound T) ∈ l

/-- The rules. -/
structure Legal (t : ScopeTree T) : Prop where
  rootDistinct : Distinct t.rootBindings
  childDistinct : ∀ m ∈ t.children, Distinct (t.childBindings m)
  reexportsResolve : ∀ c n, ScopeItem.reexport c n ∈ t.root.items → t.reexported c n ≠ []
  importsResolve : ∀ m ∈ t.children, ∀ n, ScopeItem.useSuper n ∈ m.items → t.imported n ≠ []
  rootRefs : ∀ r ∈ t.root.refs, Denotes t.rootBindings r.ns r.name r.what
  childRefs : ∀ m ∈ t.children, ∀ r ∈ m.refs, Denotes (t.childBindings m) r.ns r.name r.what
  fieldsDistinct : ∀ fs ∈ t.fields, fs.Nodup
  notKeywords : ∀ b, b ∈ t.rootBindings ∨ (∃ m ∈ t.children, b ∈ t.childBindings m) → IsIdent b.name
  fieldsNotKeywords : ∀ fs ∈ t.fields, ∀ f ∈ fs, IsIdent f

/-- What the path `child::name` stands for outside: `child` is a public submodule and `name` is public in it. -/
def Path (t : ScopeTree T) (isModule : T → Prop) (child : Str) (ns : Ns) (name : Str) (what : T) : Prop :=
  (∃ w, isModule w ∧ (⟨true, .type, child, w⟩ : Bound T) ∈ t.rootBindings) ∧
  ∃ m ∈ t.children, m.name = child ∧ (⟨true, ns, name, what⟩ : Bound T) ∈ t.childBindings m

end ScopeTree
end Diman
