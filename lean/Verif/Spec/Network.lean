import Verif.Spec.Archive
/-!
# Programs with different versions of a unit system exchange quantities (C78)
Nodes send each other serialised quantities. Every node is compiled with some version of the unit system, and may be replaced by another version at any time, also
by an older one. Messages are delivered in any order, any number of times or never, to any node; they can be cut short; a node may pass on what it has read.
The pool holds every message that was ever sent: what a message is supposed to say is kept beside it, for the specification only.
-/
namespace Diman
open LawfulExponent

/-- The version of each node, and the messages that were sent. -/
structure Network (E K M ι : Type) where
  version : ι → UnresolvedTemplates E M × Defs E M
  messages : List (Str × Content K)

section
variable {E K M ι : Type} [Exponent E] [LawfulExponent E] [FieldOps E] [WrittenExponent E] [ShowExponent E] [MagOps E M] [Prims K M] [TextPrims K M]
  [LawfulText E K M]

/-- A version that a node may use: a good one, which the version `top` extends. -/
def Below (K : Type) [Prims K M] [TextPrims K M] (factor : Prefix → M) (top : UnresolvedTemplates E M) (v : UnresolvedTemplates E M × Defs E M) : Prop :=
  GoodVersion K factor v.1 v.2 ∧ Extends v.1 top

/-- What can happen. -/
inductive Network.Step [DecidableEq ι] (factor : Prefix → M) (top : UnresolvedTemplates E M) : Network E K M ι → Network E K M ι → Prop where
  /-- Node `i` sends a quantity. -/
  | send (σ : Network E K M ι) (i : ι) (s : Storage) (d : DimVal E) (x : Str → ℚ) (xs : Raw K) (text : Str) (type : Denotes (σ.version i).2 d x)
      (components : xs.length = s.numDims) (valid : ∀ x ∈ xs, LawfulText.Valid E M s.base x) (written : serializeStr M (σ.version i).2 s d xs = some text) :
      Step factor top σ { σ with messages := (text, ⟨s, x, xs, false⟩) :: σ.messages }
  /-- Node `i` receives a message, reads it as a quantity of its type and, if that succeeds, sends on what it has read. -/
  | relay (σ : Network E K M ι) (i : ι) (m : Str × Content K) (d : DimVal E) (text : Str) (xs : Raw K) (sent : m ∈ σ.messages)
      (type : Denotes (σ.version i).2 d m.2.dimension) (read : deserializeStr M (σ.version i).2 m.2.storage d m.1 = some (.ok xs))
      (written : serializeStr M (σ.version i).2 m.2.storage d xs = some text) :
      Step factor top σ { σ with messages := (text, m.2) :: σ.messages }
  /-- A message loses its end. -/
  | cut (σ : Network E K M ι) (m : Str × Content K) (short : Str) (sent : m ∈ σ.messages) (initial : short <+: m.1) (proper : short ≠ m.1) :
      Step factor top σ { σ with messages := (short, { m.2 with torn := true }) :: σ.messages }
  /-- Node `i` is replaced by another version, newer or older. -/
  | replace (σ : Network E K M ι) (i : ι) (v : UnresolvedTemplates E M × Defs E M) (below : Below K factor top v) :
      Step factor top σ { σ with version := Function.update σ.version i v }

/-- The states that a history can lead to, beginning with no messages. -/
inductive Network.Reachable [DecidableEq ι] (factor : Prefix → M) (top : UnresolvedTemplates E M) : Network E K M ι → Prop where
  | start (version : ι → UnresolvedTemplates E M × Defs E M) (below : ∀ i, Below K factor top (version i)) : Reachable factor top ⟨version, []⟩
  | step {σ σ' : Network E K M ι} (before : Reachable factor top σ) (event : Network.Step factor top σ σ') : Reachable factor top σ'
end
end Diman
