import Verif.Spec.Torn
import Verif.Proofs.Text
import Verif.Props.C52
/-!
# A store of serialised quantities (C77)
A program keeps quantities as texts, written by the generated `Serialize` (diman_unit_system/src/codegen/serde.rs:158-179, 228-273) and read by the generated
`Deserialize` (serde.rs:33-130). Over the years the unit system is extended, records are migrated one by one, and crashes cut texts short.
The store only holds texts: what a record is supposed to hold is kept beside it, for the specification only.
-/
namespace Diman
open LawfulExponent

/-- What a record is supposed to hold: a quantity (its storage, the exponent of every base dimension by name, its value), and whether its text lost its end. -/
structure Content (K : Type) where
  storage : Storage
  dimension : Str → ℚ
  value : Raw K
  torn : Bool

/-- The version of the unit system that the program is compiled with, the texts, and what they are supposed to hold. -/
structure Archive (E K M ι : Type) where
  templates : UnresolvedTemplates E M
  defs : Defs E M
  text : ι → Option Str
  content : ι → Option (Content K)

section
variable {E K M ι : Type} [Exponent E] [LawfulExponent E] [FieldOps E] [WrittenExponent E] [ShowExponent E] [MagOps E M] [Prims K M] [TextPrims K M]
  [LawfulText E K M]

/-- A version of the unit system that can be used to store data: it is accepted, its base dimensions have distinct names and base units, its symbols are plain
words, its conversion factors are finite. -/
structure GoodVersion (K : Type) [Prims K M] [TextPrims K M] (factor : Prefix → M) (t : UnresolvedTemplates E M) (defs : Defs E M) : Prop where
  accepted : runUnitSystem factor t = some (defs, [])
  literals : (UnresolvedTemplates.expand (MagOps.one E) factor t).LitExponents (WrittenExponent.Ok : E → Prop)
  distinct : defs.baseDimensions.Nodup
  hasBase : ∀ d ∈ t.dimensions, d.rhs = .base () → ∃ v ∈ t.units, v.definition = .base d.name
  symbols : t.PlainSymbols
  finite : ∀ U ∈ defs.units, TextPrims.finite M (Prims.into .f64 U.mag : K) = true

/-- The type argument `d` of a quantity type of the version with definitions `defs` stands for the dimension `x`. All exponents are integers. -/
structure Denotes (defs : Defs E M) (d : DimVal E) (x : Str → ℚ) : Prop where
  fields : d.length = defs.baseDimensions.length
  integer : ∀ e ∈ d, ∃ i : Int, InI32 i ∧ e = Exponent.ofInt i
  exponents : exponentAt defs.baseDimensions d = x

/-- What can happen. `Ok` is a condition on the versions that are ever used. -/
inductive Archive.Step [DecidableEq ι] (factor : Prefix → M) (Ok : Defs E M → Prop) : Archive E K M ι → Archive E K M ι → Prop where
  /-- A quantity is serialised and stored under the key `i` (whatever was there). -/
  | write (σ : Archive E K M ι) (i : ι) (s : Storage) (d : DimVal E) (x : Str → ℚ) (xs : Raw K) (new : Str) (type : Denotes σ.defs d x)
      (components : xs.length = s.numDims) (valid : ∀ x ∈ xs, LawfulText.Valid E M s.base x) (written : serializeStr M σ.defs s d xs = some new) :
      Step factor Ok σ { σ with text := Function.update σ.text i (some new), content := Function.update σ.content i (some ⟨s, x, xs, false⟩) }
  /-- A record is deleted. -/
  | delete (σ : Archive E K M ι) (i : ι) :
      Step factor Ok σ { σ with text := Function.update σ.text i none, content := Function.update σ.content i none }
  /-- A record is copied, as a text. -/
  | copy (σ : Archive E K M ι) (i j : ι) :
      Step factor Ok σ { σ with text := Function.update σ.text j (σ.text i), content := Function.update σ.content j (σ.content i) }
  /-- A record is read as a quantity of its type and, if that succeeds, what was read is written back. -/
  | rewrite (σ : Archive E K M ι) (i : ι) (c : Content K) (d : DimVal E) (old new : Str) (xs : Raw K) (here : σ.content i = some c)
      (type : Denotes σ.defs d c.dimension) (stored : σ.text i = some old) (read : deserializeStr M σ.defs c.storage d old = some (.ok xs))
      (written : serializeStr M σ.defs c.storage d xs = some new) :
      Step factor Ok σ { σ with text := Function.update σ.text i (some new) }
  /-- A crash: the text of a record loses its end. -/
  | tear (σ : Archive E K M ι) (i : ι) (c : Content K) (old cut : Str) (here : σ.content i = some c) (stored : σ.text i = some old) (initial : cut <+: old)
      (short : cut ≠ old) :
      Step factor Ok σ { σ with text := Function.update σ.text i (some cut), content := Function.update σ.content i (some { c with torn := true }) }
  /-- The program is compiled with a later version of the unit system: statements were added. No record changes. -/
  | upgrade (σ : Archive E K M ι) (t' : UnresolvedTemplates E M) (defs' : Defs E M) (ext : Extends σ.templates t') (good : GoodVersion K factor t' defs')
      (ok : Ok defs') : Step factor Ok σ { σ with templates := t', defs := defs' }

/-- The states that a history can lead to, beginning with an empty store. -/
inductive Archive.Reachable [DecidableEq ι] (factor : Prefix → M) (Ok : Defs E M → Prop) : Archive E K M ι → Prop where
  | start (t : UnresolvedTemplates E M) (defs : Defs E M) (good : GoodVersion K factor t defs) (ok : Ok defs) :
      Reachable factor Ok ⟨t, defs, fun _ => none, fun _ => none⟩
  | step {σ σ' : Archive E K M ι} (before : Reachable factor Ok σ) (event : Archive.Step factor Ok σ σ') : Reachable factor Ok σ'
end
end Diman
