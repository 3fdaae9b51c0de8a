import Verif.Proofs.Versions
import Verif.Props.C27
import Verif.Props.C30
import Verif.Props.C52
/-!
# C59 — texts written by one version of a unit system can be read by later ones
`deserializeStr M defs s d text` is the generated `Deserialize` for the quantity of storage `s` and dimension `d` applied to a string
(C28), `serializeStr` the string the generated `Serialize` writes (C27). `SameDimension` and `KeepsSymbols` are in Spec/Versions.
-/
set_option linter.unusedSectionVars false
namespace Diman
open LawfulExponent

section
variable {E K M : Type} [Exponent E] [LawfulExponent E] [FieldOps E] [LawfulFieldOps E] [TotalFields E] [WrittenExponent E]
  [ShowExponent E] [LawfulShow E] [MagOps E M] [Prims K M] [TextPrims K M] [LawfulText E K M]

/-- **C59.** If a later version of a unit system keeps the units that have symbols (the same symbol, exponents and factor), then every text
from which the old version reads a quantity is read by the new version as the same quantity, bit for bit, floats and vectors. The new
version may add base dimensions, declare them in another order, add units, and rename units and constants. -/
theorem C59_reading (factor factor' : Prefix → M) (t t' : UnresolvedTemplates E M) (defs defs' : Defs E M)
    (accepted : runUnitSystem factor t = some (defs, [])) (accepted' : runUnitSystem factor' t' = some (defs', []))
    (literals : (UnresolvedTemplates.expand (MagOps.one E) factor t).LitExponents (WrittenExponent.Ok : E → Prop))
    (literals' : (UnresolvedTemplates.expand (MagOps.one E) factor' t').LitExponents (WrittenExponent.Ok : E → Prop))
    (keeps : KeepsSymbols defs defs') (distinct' : defs'.baseDimensions.Nodup)
    (finite' : ∀ U ∈ defs'.units, TextPrims.finite M (Prims.into .f64 U.mag : K) = true)
    (s : Storage) (d d' : DimVal E) (fields' : d'.length = defs'.baseDimensions.length) (canonical' : d'.Canonical)
    (same : SameDimension defs.baseDimensions d defs'.baseDimensions d') (text : Str) (r : Raw K)
    (read : deserializeStr M defs s d text = some (.ok r)) : deserializeStr M defs' s d' text = some (.ok r) := by
  obtain ⟨res, h⟩ := accepted_of_run accepted
  obtain ⟨res', h'⟩ := accepted_of_run accepted'
  obtain ⟨o, ho⟩ := C28_compiles (K := K) factor' t' defs' accepted' literals' distinct' finite' s d' text
  rw [ho, deserialize_both h literals h' keeps distinct' fields' canonical' same read ho]

theorem Extends.keeps {factor : Prefix → M} {t t' : UnresolvedTemplates E M} (ext : Extends t t') {defs defs' : Defs E M}
    (accepted : runUnitSystem factor t = some (defs, [])) (accepted' : runUnitSystem factor t' = some (defs', [])) :
    KeepsSymbols defs defs' := fun U hU _ hs =>
  ⟨U, (C52_extension factor t t' ext defs defs' accepted accepted').2.1 U hU, hs, rfl, rfl⟩

/-- **C59, adding statements.** A version that only adds statements (anywhere, in any order) to an accepted system reads every text that the
old version reads, as the same quantity. -/
theorem C59_upgrade (factor : Prefix → M) (t t' : UnresolvedTemplates E M) (ext : Extends t t') (defs defs' : Defs E M)
    (accepted : runUnitSystem factor t = some (defs, [])) (accepted' : runUnitSystem factor t' = some (defs', []))
    (literals : (UnresolvedTemplates.expand (MagOps.one E) factor t).LitExponents (WrittenExponent.Ok : E → Prop))
    (literals' : (UnresolvedTemplates.expand (MagOps.one E) factor t').LitExponents (WrittenExponent.Ok : E → Prop))
    (distinct' : defs'.baseDimensions.Nodup)
    (finite' : ∀ U ∈ defs'.units, TextPrims.finite M (Prims.into .f64 U.mag : K) = true)
    (s : Storage) (d d' : DimVal E) (fields' : d'.length = defs'.baseDimensions.length) (canonical' : d'.Canonical)
    (same : SameDimension defs.baseDimensions d defs'.baseDimensions d') (text : Str) (r : Raw K)
    (read : deserializeStr M defs s d text = some (.ok r)) : deserializeStr M defs' s d' text = some (.ok r) :=
  C59_reading factor factor t t' defs defs' accepted accepted' literals literals' (ext.keeps accepted accepted') distinct' finite' s d d'
    fields' canonical' same text r read

/-- **C59, stored data.** A quantity that the old version serialised is read by the new version as the same quantity. -/
theorem C59_saved (factor : Prefix → M) (t t' : UnresolvedTemplates E M) (ext : Extends t t') (defs defs' : Defs E M)
    (accepted : runUnitSystem factor t = some (defs, [])) (accepted' : runUnitSystem factor t' = some (defs', []))
    (literals : (UnresolvedTemplates.expand (MagOps.one E) factor t).LitExponents (WrittenExponent.Ok : E → Prop))
    (literals' : (UnresolvedTemplates.expand (MagOps.one E) factor t').LitExponents (WrittenExponent.Ok : E → Prop))
    (distinct' : defs'.baseDimensions.Nodup)
    (hasBase : ∀ d ∈ t.dimensions, d.rhs = .base () → ∃ v ∈ t.units, v.definition = .base d.name)
    (symbols : t.PlainSymbols)
    (finite' : ∀ U ∈ defs'.units, TextPrims.finite M (Prims.into .f64 U.mag : K) = true)
    (d d' : DimVal E) (fields : d.length = defs.baseDimensions.length)
    (integer : ∀ e ∈ d, ∃ i : Int, InI32 i ∧ e = Exponent.ofInt i)
    (fields' : d'.length = defs'.baseDimensions.length) (canonical' : d'.Canonical)
    (same : SameDimension defs.baseDimensions d defs'.baseDimensions d')
    (s : Storage) (xs : Raw K) (components : xs.length = s.numDims) (valid : ∀ x ∈ xs, LawfulText.Valid E M s.base x) :
    ∃ text, serializeStr M defs s d xs = some text ∧ deserializeStr M defs' s d' text = some (.ok xs) := by
  have ex := C52_extension factor t t' ext defs defs' accepted accepted'
  have distinct : defs.baseDimensions.Nodup := List.Subperm.nodup' ex.2.2.2.2.2 distinct'
  have finite : ∀ U ∈ defs.units, TextPrims.finite M (Prims.into .f64 U.mag : K) = true := fun U hU => finite' U (ex.2.1 U hU)
  have up := C59_upgrade (K := K) factor t t' ext defs defs' accepted accepted' literals literals' distinct' finite' s d d' fields' canonical'
    same
  cases hs : s.isFloat
  · obtain ⟨text, h1, h2⟩ := C30_round_trip_partial (K := K) factor t defs accepted literals distinct hasBase symbols finite d fields integer
      s hs xs components valid
    exact ⟨text, h1, up text xs h2⟩
  · have : ∃ x, xs = [x] := by
      have : xs.length = 1 := by rw [components]; cases s <;> simp_all [Storage.isFloat, Storage.numDims]
      exact List.length_eq_one_iff.1 this
    obtain ⟨x, rfl⟩ := this
    obtain ⟨text, h1, h2⟩ := C27_round_trip_partial (K := K) factor t defs accepted literals distinct hasBase symbols finite d fields integer
      s hs x (valid x (by simp))
    exact ⟨text, h1, up text [x] h2⟩
end

/-! ## Two versions of a small system -/
section
open Sample
attribute [local instance] Sample.exactMag Sample.ratPrims Sample.ratText Sample.ratLawful

/-- A first version: lengths and times. -/
def C59.old : UnresolvedTemplates Int ℚ where
  quantityTypes := [str!"Quantity"]
  dimensionTypes := [str!"Dimension"]
  dimensions := [⟨str!"Length", .base ()⟩, ⟨str!"Time", .base ()⟩]
  units := [baseUnit (str!"meters") (str!"m") (str!"Length") [.kilo], baseUnit (str!"seconds") (str!"s") (str!"Time") []]
  constants := []

/-- The next version adds masses, before the other dimensions, and a unit of acceleration. -/
def C59.new : UnresolvedTemplates Int ℚ where
  quantityTypes := [str!"Quantity"]
  dimensionTypes := [str!"Dimension"]
  dimensions := [⟨str!"Mass", .base ()⟩, ⟨str!"Length", .base ()⟩, ⟨str!"Time", .base ()⟩]
  units := [baseUnit (str!"kilograms") (str!"kg") (str!"Mass") [], baseUnit (str!"meters") (str!"m") (str!"Length") [.kilo],
    unit (str!"accelerations") (.binary (.value (v (str!"meters"))) .div (pw (str!"seconds") 2)) (some (str!"acc")),
    baseUnit (str!"seconds") (str!"s") (str!"Time") []]
  constants := []

/-- What a system compiles to (the empty definitions if it does not). -/
def C59.compiled (t : UnresolvedTemplates Int ℚ) : Defs Int ℚ :=
  match resolveDefsFuel (UnresolvedTemplates.expand 1 exactFactor t) with
  | some (d, _) => d
  | none => ⟨[], [], [], [], [], []⟩

theorem C59.run {t : UnresolvedTemplates Int ℚ} (h : (resolveDefsFuel (UnresolvedTemplates.expand 1 exactFactor t)).map Prod.snd = some []) :
    runUnitSystem exactFactor t = some (C59.compiled t, []) := by
  unfold runUnitSystem
  rw [resolveDefs_eq_fuel]
  change resolveDefsFuel (UnresolvedTemplates.expand 1 exactFactor t) = _
  unfold C59.compiled
  cases hr : resolveDefsFuel (UnresolvedTemplates.expand 1 exactFactor t) with
  | none => rw [hr] at h; simp at h
  | some p => rw [hr] at h; simp at h; simp [← h]

theorem C59.old_accepted : runUnitSystem exactFactor C59.old = some (C59.compiled C59.old, []) := C59.run (by decide +kernel)
theorem C59.new_accepted : runUnitSystem exactFactor C59.new = some (C59.compiled C59.new, []) := C59.run (by decide +kernel)

theorem C59.extends : Extends C59.old C59.new :=
  ⟨rfl, rfl, (List.sublist_cons_self _ _).subperm, by
    refine List.Sublist.subperm (.cons _ (.cons_cons _ (.cons _ (.cons_cons _ .slnil)))), (List.nil_sublist _).subperm⟩

/-- The acceleration m/s² in the old and in the new version. -/
theorem C59.same : SameDimension (C59.compiled C59.old).baseDimensions ([1, -2] : DimVal Int) (C59.compiled C59.new).baseDimensions
    [0, 1, -2] := by
  have h1 : (C59.compiled C59.old).baseDimensions = [str!"length", str!"time"] := by decide +kernel
  have h2 : (C59.compiled C59.new).baseDimensions = [str!"mass", str!"length", str!"time"] := by decide +kernel
  intro k
  rw [h1, h2]
  unfold exponentAt
  by_cases k1 : str!"mass" = k
  · subst k1; decide +kernel
  · simp [k1, List.find?_cons, List.zip_cons_cons]

-- All hypotheses of the three theorems hold for these two versions.
example (x : ℚ) : ∃ text, serializeStr ℚ (C59.compiled C59.old) .f64 [1, -2] [x] = some text ∧
    deserializeStr ℚ (C59.compiled C59.new) .f64 [0, 1, -2] text = some (.ok [x]) := by
  refine C59_saved exactFactor C59.old C59.new C59.extends _ _ C59.old_accepted C59.new_accepted ?_ ?_ (by decide +kernel) ?_ ?_
    (by decide +kernel) _ _ (by decide +kernel) ?_ (by decide +kernel) ?_ C59.same .f64 [x] rfl ?_
  · exact C18_literals_int _
  · exact C18_literals_int _
  · intro d hd _
    simp only [C59.old, List.mem_cons, List.not_mem_nil, or_false] at hd ⊢
    rcases hd with rfl | rfl
    · exact ⟨_, .inl rfl, rfl⟩
    · exact ⟨_, .inr rfl, rfl⟩
  · intro v hv s hs
    have h : ∀ v ∈ C59.old.units, ∀ s ∈ v.symbol, s ≠ [] ∧ (s.all fun c => !isWs c && !reservedChars.contains c) = true := by decide +kernel
    obtain ⟨h1, h2⟩ := h v hv s hs
    exact ⟨h1, fun c hc => by simpa using List.all_eq_true.1 h2 c hc⟩
  · intro e he
    simp only [List.mem_cons, List.not_mem_nil, or_false] at he
    rcases he with rfl | rfl
    · exact ⟨1, by decide, rfl⟩
    · exact ⟨-2, by decide, rfl⟩
  · exact fun _ _ => trivial
  · exact fun _ _ => trivial

-- The old and the new version read `0.25 km s^-2` alike.
example : deserializeStr ℚ (C59.compiled C59.old) .f64 [1, -2] (str!"1/4 km s^-2") = some (.ok [(250 : ℚ)]) ∧
    deserializeStr ℚ (C59.compiled C59.new) .f64 [0, 1, -2] (str!"1/4 km s^-2") = some (.ok [(250 : ℚ)]) := by decide +kernel

/-- **C59 fails in the other direction.** Adding a unit of magnitude one changes the text that is written: the new version writes the
acceleration with the symbol of the new unit, which the old version cannot read. Both versions are accepted, the new one only adds
statements to the old one, and both read the text that the old one writes. -/
theorem C59_not_backward : ∃ (t t' : UnresolvedTemplates Int ℚ) (defs defs' : Defs Int ℚ) (d d' : DimVal Int) (x : ℚ) (text text' : Str),
    Extends t t' ∧ runUnitSystem exactFactor t = some (defs, []) ∧ runUnitSystem exactFactor t' = some (defs', []) ∧
    SameDimension defs.baseDimensions d defs'.baseDimensions d' ∧
    serializeStr ℚ defs .f64 d [x] = some text ∧ deserializeStr ℚ defs .f64 d text = some (.ok [x]) ∧
    deserializeStr ℚ defs' .f64 d' text = some (.ok [x]) ∧
    serializeStr ℚ defs' .f64 d' [x] = some text' ∧ deserializeStr ℚ defs' .f64 d' text' = some (.ok [x]) ∧
    text ≠ text' ∧ deserializeStr ℚ defs .f64 d text' = some (.error : Outcome (Raw ℚ)) :=
  ⟨C59.old, C59.new, _, _, [1, -2], [0, 1, -2], 3 / 4, str!"3/4 m s^-2", str!"3/4 acc", C59.extends, C59.old_accepted, C59.new_accepted,
    C59.same, by decide +kernel⟩
end
end Diman
