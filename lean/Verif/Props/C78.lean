import Verif.Spec.Network
import Verif.Props.C77
/-!
# C78 — nodes with different versions do not misread each other
-/
set_option linter.unusedSectionVars false
namespace Diman
open LawfulExponent
section
variable {E K M ι : Type} [Exponent E] [LawfulExponent E] [FieldOps E] [LawfulFieldOps E] [TotalFields E] [WrittenExponent E]
  [ShowExponent E] [LawfulShow E] [MagOps E M] [Prims K M] [TextPrims K M] [LawfulText E K M] [DecidableEq ι]

/-- A dimension of a system as a dimension of a system with more base dimensions. -/
theorem transport {bd bd' : List Str} (distinct : bd'.Nodup) (sub : bd ⊆ bd') {d : DimVal E} (canonical : d.Canonical) :
    ∃ d' : DimVal E, d'.length = bd'.length ∧ d'.Canonical ∧ exponentAt bd' d' = exponentAt bd d := by
  refine ⟨bd'.map fun k => (((bd.zip d).find? fun p => decide (p.1 = k)).map Prod.snd).getD Exponent.zero, by simp, ?_, ?_⟩
  · intro e he
    obtain ⟨k, -, rfl⟩ := List.mem_map.1 he
    cases hf : ((bd.zip d).find? fun p => decide (p.1 = k)) with
    | none => simpa using zero_canon
    | some p => simpa using canonical p.2 (List.of_mem_zip (List.mem_of_find?_eq_some hf)).2
  · funext k
    by_cases hk : k ∈ bd'
    · have := vec_exponentAt distinct
        (d := bd'.map fun k => (((bd.zip d).find? fun p => decide (p.1 = k)).map Prod.snd).getD (Exponent.zero : E)) (by simp)
      simp only [DimVal.vec, List.map_map] at this
      rw [(List.map_inj_left.1 this k hk).symm]
      simp only [Function.comp, exponentAt]
      cases hf : ((bd.zip d).find? fun p => decide (p.1 = k)) <;> simp [zero_val]
    · rw [exponentAt_absent hk, exponentAt_absent fun h => hk (sub h)]

/-- What a version reads, every version that extends it reads. -/
theorem read_above {factor : Prefix → M} {t t' : UnresolvedTemplates E M} {defs defs' : Defs E M} (good : GoodVersion K factor t defs)
    (good' : GoodVersion K factor t' defs') (ext : Extends t t') {s : Storage} {d : DimVal E} (canonical : d.Canonical) {text : Str} {r : Raw K}
    (read : deserializeStr M defs s d text = some (.ok r)) :
    ∃ d', d'.length = defs'.baseDimensions.length ∧ d'.Canonical ∧ exponentAt defs'.baseDimensions d' = exponentAt defs.baseDimensions d ∧
      deserializeStr M defs' s d' text = some (.ok r) := by
  have ex := C52_extension factor t t' ext defs defs' good.accepted good'.accepted
  obtain ⟨d', h1, h2, h3⟩ := transport (E := E) good'.distinct ex.2.2.2.2.2.subset canonical
  exact ⟨d', h1, h2, h3, C59_upgrade factor t t' ext defs defs' good.accepted good'.accepted good.literals good'.literals good'.distinct good'.finite s d d' h1
    h2 (fun k => by rw [h3]) text r read⟩

/-- Where the messages come from. -/
structure Network.Inv (factor : Prefix → M) (top : UnresolvedTemplates E M) (σ : Network E K M ι) : Prop where
  below : ∀ i, Below K factor top (σ.version i)
  whole : ∀ m ∈ σ.messages, m.2.torn = false → Wrote factor top m.2 m.1
  torn : ∀ topDefs, GoodVersion K factor top topDefs → TearSafe topDefs → ∀ m ∈ σ.messages, m.2.torn = true → (∃ k, m.2.dimension k ≠ 0) →
    ∃ text, Wrote factor top m.2 text ∧ m.1 <+: text ∧ m.1 ≠ text

/-- Reading a whole message, if it succeeds, gives what was sent. -/
theorem Wrote.below {factor : Prefix → M} {top : UnresolvedTemplates E M} {topDefs : Defs E M} (goodTop : GoodVersion K factor top topDefs) {c : Content K}
    {text : Str} (h : Wrote factor top c text) {v : UnresolvedTemplates E M × Defs E M} (below : Below K factor top v) {d : DimVal E} (canonical : d.Canonical)
    {s : Storage} (kind : s.isFloat = c.storage.isFloat) {r : Raw K} (read : deserializeStr M v.2 s d text = some (.ok r)) :
    exponentAt v.2.baseDimensions d = c.dimension ∧ (s = c.storage → r = c.value) := by
  obtain ⟨d', h1, h2, h3, h4⟩ := read_above below.1 goodTop below.2 canonical read
  obtain ⟨e, e1, e2, e3⟩ : ∃ e : DimVal E, e.length = topDefs.baseDimensions.length ∧ e.Canonical ∧ exponentAt topDefs.baseDimensions e = c.dimension := by
    obtain ⟨-, -, t0, defs0, d0, g1, g2, g3, -⟩ := h
    obtain ⟨e, e1, e2, e3⟩ := transport (E := E) goodTop.distinct
      (C52_extension factor t0 top g2 defs0 topDefs g1.accepted goodTop.accepted).2.2.2.2.2.subset g3.canonical
    exact ⟨e, e1, e2, e3.trans g3.exponents⟩
  have hread := h.read goodTop e1 e2 e3
  have hde := one_dimension kind h4 hread
  subst hde
  refine ⟨by rw [← h3, e3], fun hs => ?_⟩
  subst hs
  rw [h4] at hread
  cases hread; rfl

theorem Network.Reachable.inv {factor : Prefix → M} {top : UnresolvedTemplates E M} {topDefs : Defs E M} (goodTop : GoodVersion K factor top topDefs)
    {σ : Network E K M ι} (h : σ.Reachable factor top) : σ.Inv factor top := by
  induction h with
  | start version below => exact ⟨below, fun _ h => by (cases h), fun _ _ _ _ h => by cases h⟩
  | step _ event ih =>
    cases event with
    | send i s d x xs text type components valid written =>
      refine ⟨ih.below, fun m hm ht => ?_, fun td g hs m hm ht hk => ?_⟩
      · rcases List.mem_cons.1 hm with rfl | hm
        · exact ⟨components, valid, _, _, d, (ih.below i).1, (ih.below i).2, type, written⟩
        · exact ih.whole m hm ht
      · rcases List.mem_cons.1 hm with rfl | hm
        · cases ht
        · exact ih.torn td g hs m hm ht hk
    | relay i m' d text xs sent type read written =>
      refine ⟨ih.below, fun m hm ht => ?_, fun td g hs m hm ht hk => ?_⟩
      · rcases List.mem_cons.1 hm with rfl | hm
        · have w := ih.whole m' sent ht
          have := (w.below goodTop (ih.below i) type.canonical rfl read).2 rfl
          subst this
          exact ⟨w.1, w.2.1, _, _, d, (ih.below i).1, (ih.below i).2, type, written⟩
        · exact ih.whole m hm ht
      · rcases List.mem_cons.1 hm with rfl | hm
        · obtain ⟨whole, w, hp, hne⟩ := ih.torn td g hs m' sent ht hk
          obtain ⟨d', h1, h2, h3, h4⟩ := read_above (ih.below i).1 g (ih.below i).2 type.canonical read
          exact absurd h4 (w.refuse g hs hk hp hne h1 h2 (h3.trans type.exponents) xs)
        · exact ih.torn td g hs m hm ht hk
    | cut m' short sent initial proper =>
      refine ⟨ih.below, fun m hm ht => ?_, fun td g hs m hm ht hk => ?_⟩
      · rcases List.mem_cons.1 hm with rfl | hm
        · cases ht
        · exact ih.whole m hm ht
      · rcases List.mem_cons.1 hm with rfl | hm
        · cases ht' : m'.2.torn with
          | false => exact ⟨m'.1, ih.whole m' sent ht', initial, proper⟩
          | true =>
            obtain ⟨whole, w, hp, hne⟩ := ih.torn td g hs m' sent ht' hk
            refine ⟨whole, w, initial.trans hp, fun h => ?_⟩
            have l1 := initial.length_le
            have l2 := hp.length_le
            rw [show short = whole from h] at l1
            exact hne (hp.eq_of_length (by omega))
        · exact ih.torn td g hs m hm ht hk
    | replace i v below =>
      refine ⟨fun j => ?_, ih.whole, ih.torn⟩
      simp only [Function.update_apply]
      split
      · exact below
      · exact ih.below j

/-- **C78.** If all versions in use have a common extension, then in every schedule a node that succeeds in reading a message as a quantity of its storage type gets
exactly the value that was sent first (whoever passed it on), and only at its dimension. -/
theorem C78_never_misread (factor : Prefix → M) (top : UnresolvedTemplates E M) (topDefs : Defs E M) (compatible : GoodVersion K factor top topDefs)
    (σ : Network E K M ι) (reachable : σ.Reachable factor top) (m : Str × Content K) (sent : m ∈ σ.messages) (whole : m.2.torn = false) (i : ι)
    (d : DimVal E) (canonical : d.Canonical) (r : Raw K) (read : deserializeStr M (σ.version i).2 m.2.storage d m.1 = some (.ok r)) :
    r = m.2.value ∧ exponentAt (σ.version i).2.baseDimensions d = m.2.dimension := by
  have inv := reachable.inv compatible
  have := (inv.whole m sent whole).below compatible (inv.below i) canonical rfl read
  exact ⟨this.2 rfl, this.1⟩

/-- **C78, other storage types.** Also at another precision a message is only read at the dimension of what was sent. -/
theorem C78_dimension (factor : Prefix → M) (top : UnresolvedTemplates E M) (topDefs : Defs E M) (compatible : GoodVersion K factor top topDefs)
    (σ : Network E K M ι) (reachable : σ.Reachable factor top) (m : Str × Content K) (sent : m ∈ σ.messages) (whole : m.2.torn = false) (i : ι)
    (s : Storage) (kind : s.isFloat = m.2.storage.isFloat) (d : DimVal E) (canonical : d.Canonical) (r : Raw K)
    (read : deserializeStr M (σ.version i).2 s d m.1 = some (.ok r)) : exponentAt (σ.version i).2.baseDimensions d = m.2.dimension := by
  have inv := reachable.inv compatible
  exact ((inv.whole m sent whole).below compatible (inv.below i) canonical kind read).1

/-- **C78, torn messages.** If the symbols of the common extension are tear-safe, no node reads a torn message of a quantity that has a dimension as a quantity of
its type. -/
theorem C78_torn (factor : Prefix → M) (top : UnresolvedTemplates E M) (topDefs : Defs E M) (compatible : GoodVersion K factor top topDefs)
    (safe : TearSafe topDefs) (σ : Network E K M ι) (reachable : σ.Reachable factor top) (m : Str × Content K) (sent : m ∈ σ.messages) (torn : m.2.torn = true)
    (nonzero : ∃ k, m.2.dimension k ≠ 0) (i : ι) (d : DimVal E) (canonical : d.Canonical)
    (denotes : exponentAt (σ.version i).2.baseDimensions d = m.2.dimension) (r : Raw K) :
    deserializeStr M (σ.version i).2 m.2.storage d m.1 ≠ some (.ok r) := by
  intro read
  have inv := reachable.inv compatible
  obtain ⟨whole, w, hp, hne⟩ := inv.torn topDefs compatible safe m sent torn nonzero
  obtain ⟨d', h1, h2, h3, h4⟩ := read_above (inv.below i).1 compatible (inv.below i).2 canonical read
  exact w.refuse compatible safe nonzero hp hne h1 h2 (h3.trans denotes) r h4

/-- **C78, delivery.** A node with the common extension itself reads every whole message. -/
theorem C78_delivered (factor : Prefix → M) (top : UnresolvedTemplates E M) (topDefs : Defs E M) (compatible : GoodVersion K factor top topDefs)
    (σ : Network E K M ι) (reachable : σ.Reachable factor top) (m : Str × Content K) (sent : m ∈ σ.messages) (whole : m.2.torn = false) (d : DimVal E)
    (fields : d.length = topDefs.baseDimensions.length) (canonical : d.Canonical) (denotes : exponentAt topDefs.baseDimensions d = m.2.dimension) :
    deserializeStr M topDefs m.2.storage d m.1 = some (.ok m.2.value) :=
  ((reachable.inv compatible).whole m sent whole).read compatible fields canonical denotes
end

/-! ## Two nodes -/
section
open Sample
attribute [local instance] Sample.exactMag Sample.ratPrims Sample.ratText Sample.ratLawful

/-- Node 0 has the old version of C59, node 1 the new one. Both send 3/4 m/s², and the message of node 0 is cut short. -/
def C78.network : Network Int ℚ ℚ Bool where
  version i := if i then (C59.new, C59.compiled C59.new) else (C59.old, C59.compiled C59.old)
  messages := [(str!"3/4 m", ⟨.f64, C77.acceleration, [3 / 4], true⟩), (str!"3/4 acc", ⟨.f64, C77.acceleration, [3 / 4], false⟩),
    (str!"3/4 m s^-2", ⟨.f64, C77.acceleration, [3 / 4], false⟩)]

theorem C78.reachable : C78.network.Reachable exactFactor C59.new := by
  have dOld : Denotes (C59.compiled C59.old) ([1, -2] : DimVal Int) C77.acceleration :=
    ⟨by decide +kernel, fun e he => ⟨e, by revert e; decide, rfl⟩, rfl⟩
  have dNew : Denotes (C59.compiled C59.new) ([0, 1, -2] : DimVal Int) C77.acceleration :=
    ⟨by decide +kernel, fun e he => ⟨e, by revert e; decide, rfl⟩, (funext C59.same).symm⟩
  have r0 := Network.Reachable.start (K := ℚ) (factor := exactFactor) (top := C59.new) C78.network.version (by
    intro i
    cases i
    · exact ⟨C77.old_good, C59.extends⟩
    · exact ⟨C77.new_good, .refl _⟩)
  have r1 := r0.step (.send _ false .f64 [1, -2] C77.acceleration [3 / 4] (str!"3/4 m s^-2") dOld rfl (fun _ _ => trivial) (by decide +kernel))
  have r2 := r1.step (.send _ true .f64 [0, 1, -2] C77.acceleration [3 / 4] (str!"3/4 acc") dNew rfl (fun _ _ => trivial) (by decide +kernel))
  exact r2.step (.cut _ (str!"3/4 m s^-2", ⟨.f64, C77.acceleration, [3 / 4], false⟩) (str!"3/4 m") (by simp) (by decide) (by decide))

-- The theorems apply: node 1 reads what node 0 sent, no node reads the torn message.
example : deserializeStr ℚ (C59.compiled C59.new) .f64 ([0, 1, -2] : DimVal Int) (str!"3/4 m s^-2") = some (.ok [(3 / 4 : ℚ)]) ∧
    ∀ i r, deserializeStr ℚ (C78.network.version i).2 .f64 (if i then [0, 1, -2] else [1, -2] : DimVal Int) (str!"3/4 m") ≠ some (.ok r : Outcome (Raw ℚ)) := by
  refine ⟨C78_delivered exactFactor C59.new _ C77.new_good C78.network C78.reachable (str!"3/4 m s^-2", ⟨.f64, C77.acceleration, [3 / 4], false⟩)
    (by simp [C78.network]) rfl _ (by decide +kernel) (fun _ _ => trivial) (funext C59.same).symm, fun i r => ?_⟩
  refine C78_torn exactFactor C59.new _ C77.new_good C76.new_safe C78.network C78.reachable (str!"3/4 m", ⟨.f64, C77.acceleration, [3 / 4], true⟩)
    (by simp [C78.network]) rfl ⟨str!"length", by unfold C77.acceleration; decide +kernel⟩ i _ (fun _ _ => trivial) ?_ r
  cases i
  · rfl
  · exact (funext C59.same).symm

/-- Another extension of the old version, in which `acc` is the symbol of a unit twice as large. -/
def C78.fork : UnresolvedTemplates Int ℚ where
  quantityTypes := [str!"Quantity"]
  dimensionTypes := [str!"Dimension"]
  dimensions := [⟨str!"Length", .base ()⟩, ⟨str!"Time", .base ()⟩]
  units := [baseUnit (str!"meters") (str!"m") (str!"Length") [.kilo],
    unit (str!"accelerations") (.binary (.binary (.value (c 2)) .mul (v (str!"meters"))) .div (pw (str!"seconds") 2)) (some (str!"acc")),
    baseUnit (str!"seconds") (str!"s") (str!"Time") []]
  constants := []

theorem C78.fork_extends : Extends C59.old C78.fork :=
  ⟨rfl, rfl, List.Subperm.refl _, List.Sublist.subperm (.cons_cons _ (.cons _ (.cons_cons _ .slnil))), List.Subperm.refl _⟩

/-- **C78 needs a common extension.** Two versions that both extend a third one, each accepted, misread each other: the text of 3/4 m/s² written by one is read by the
other, as the same dimension, as 3/2 m/s². -/
theorem C78_needs_common : ∃ (t t' t'' : UnresolvedTemplates Int ℚ) (defs' defs'' : Defs Int ℚ) (d' d'' : DimVal Int) (x y : ℚ) (text : Str),
    Extends t t' ∧ Extends t t'' ∧ runUnitSystem exactFactor t' = some (defs', []) ∧ runUnitSystem exactFactor t'' = some (defs'', []) ∧
    SameDimension defs''.baseDimensions d'' defs'.baseDimensions d' ∧
    serializeStr ℚ defs' .f64 d' [x] = some text ∧ deserializeStr ℚ defs'' .f64 d'' text = some (.ok [y]) ∧ x ≠ y :=
  ⟨C59.old, C59.new, C78.fork, _, _, [0, 1, -2], [1, -2], 3 / 4, 3 / 2, str!"3/4 acc", C59.extends, C78.fork_extends, C59.new_accepted,
    C59.run (by decide +kernel), by
      have h : (C59.compiled C78.fork).baseDimensions = (C59.compiled C59.old).baseDimensions := by decide +kernel
      rw [h]; exact C59.same, by decide +kernel⟩
end
end Diman
