import Verif.Props.C07
import Verif.Props.C10
import Verif.Props.C44
/-!
# C15 Prefixes and aliases generate exactly the promised units
-/
set_option linter.unusedSectionVars false
namespace Diman
open LawfulExponent

section
variable {E M : Type} [Exponent E] [LawfulExponent E] [MagOps E M]

theorem inj_of_nodup {α β : Type} {f : α → β} {l : List α} (h : (l.map f).Nodup) {a b : α} (ha : a ∈ l) (hb : b ∈ l)
    (e : f a = f b) : a = b := by
  induction l with
  | nil => simp at ha
  | cons c l ih =>
    simp only [List.map_cons, List.nodup_cons, List.mem_map, not_exists, not_and] at h
    rcases List.mem_cons.1 ha with rfl | ha1 <;> rcases List.mem_cons.1 hb with rfl | hb1
    · rfl
    · exact (h.1 b hb1 e.symm).elim
    · exact (h.1 a ha1 e).elim
    · exact ih h.2 ha1 hb1

/-- **C15 (the units).** In an accepted system, for every unit statement `v` the unit `v` itself is generated with its own name and
symbol (call it `O`), and
* for every prefix `p` of `v` the unit called `p`+name, with symbol `p`'s letter + symbol (if `v` has one),
* for every alias `a` the unit called `a`, and for every prefix `p` and alias `a` the unit called `p`+`a`, both without symbol;
all have the dimension of `O`; the prefixed ones have the prefix factor times the factor of `O` as their factor, and the plain
aliases one times the factor of `O`. -/
theorem C15_units (factor : Prefix → M) (t : UnresolvedTemplates E M) (defs : Defs E M)
    (accepted : runUnitSystem factor t = some (defs, []))
    (literals : (UnresolvedTemplates.expand (MagOps.one E) factor t).GoodExponents) (v : UnitTemplate E M) (hv : v ∈ t.units) :
    ∃ O ∈ defs.units, O.name = v.name ∧ O.symbol = v.symbol ∧
      (∀ p ∈ v.prefixes, ∃ U ∈ defs.units, U.name = p.name ++ v.name ∧ U.symbol = v.symbol.map (p.short ++ ·) ∧
        (∀ k, U.dims.expo k = O.dims.expo k) ∧ U.mag = MagOps.mul E (factor p) O.mag) ∧
      (∀ a ∈ v.aliases, ∃ U ∈ defs.units, U.name = a ∧ U.symbol = none ∧
        (∀ k, U.dims.expo k = O.dims.expo k) ∧ U.mag = MagOps.mul E (MagOps.one E) O.mag) ∧
      (∀ p ∈ v.prefixes, ∀ a ∈ v.aliases, ∃ U ∈ defs.units, U.name = p.name ++ a ∧ U.symbol = none ∧
        (∀ k, U.dims.expo k = O.dims.expo k) ∧ U.mag = MagOps.mul E (factor p) O.mag) := by
  obtain ⟨res, h⟩ := accepted_of_run accepted
  obtain ⟨_, eqs, _⟩ := C07_equations factor t defs accepted literals
  have memx : ∀ pre al, (pre = none ∨ ∃ p ∈ v.prefixes, pre = some p) → (al = none ∨ ∃ a ∈ v.aliases, al = some a) →
      v.expandOne (MagOps.one E) factor pre al ∈ (UnresolvedTemplates.expand (MagOps.one E) factor t).units := by
    intro pre al h1 h2
    simp only [UnresolvedTemplates.expand, List.mem_flatMap]
    exact ⟨v, hv, UnitTemplate.mem_expand.2 ⟨pre, al, h1, h2, rfl⟩⟩
  obtain ⟨dmO, _, _, hO⟩ := h.unit_val (memx none none (.inl rfl) (.inl rfl))
  have hOl := h.unit_lookup hO
  have key : ∀ pre al, (pre = none ∨ ∃ p ∈ v.prefixes, pre = some p) → (al = none ∨ ∃ a ∈ v.aliases, al = some a) →
      (pre.isSome ∨ al.isSome) → ∃ U ∈ defs.units, U.name = v.formatName pre al ∧ U.symbol = v.formatSymbol pre al ∧
        (∀ k, U.dims.expo k = dmO.dims.expo k) ∧
          U.mag = MagOps.mul E (pre.elim (MagOps.one E) factor) dmO.mag := by
    intro pre al h1 h2 h3
    obtain ⟨U, hU, hn, hdef⟩ := eqs _ (memx pre al h1 h2)
    obtain ⟨dm, _, _, hU'⟩ := h.unit_val (memx pre al h1 h2)
    have := inj_of_nodup h.unit_nodup hU hU' hn
    have hne : (al.isNone && pre.isNone) = false := by cases pre <;> cases al <;> simp_all
    have hd : (v.expandOne (MagOps.one E) factor pre al).definition =
        .expression (.binary (.value (.value (.concrete (pre.elim (MagOps.one E) factor)))) .mul
          (.value (.other v.name))) := by
      simp only [UnitTemplate.expandOne, UnitTemplate.getDefinition, hne]
      cases pre <;> rfl
    rw [hd] at hdef
    refine ⟨U, hU, hn, by rw [this]; rfl, fun k => ?_, ?_⟩
    · rw [hdef.1 k]
      have := hOl.1 k
      simp only [Expr.specExpo, Factor.specExpo, Atom.expo]
      rw [zero_add]; exact this
    · rw [hdef.2]
      have := hOl.2
      simp only [Expr.specMag, Factor.specMag, Atom.mag]
      rw [show defs.magOf v.name = dmO.mag from this]
  refine ⟨_, hO, rfl, rfl, fun p hp => ?_, fun a ha => ?_, fun p hp a ha => ?_⟩
  · exact key (some p) none (.inr ⟨p, hp, rfl⟩) (.inl rfl) (.inl rfl)
  · exact key none (some a) (.inl rfl) (.inr ⟨a, ha, rfl⟩) (.inr rfl)
  · exact key (some p) (some a) (.inr ⟨p, hp, rfl⟩) (.inr ⟨a, ha, rfl⟩) (.inl rfl)

/-- **C15 (nothing else).** The generated units of an accepted system are, up to order and each once, exactly those names and
symbols, and a statement with `m` prefixes and `n` aliases contributes `(m+1)(n+1)` of them. -/
theorem C15_exactly (factor : Prefix → M) (t : UnresolvedTemplates E M) (defs : Defs E M)
    (accepted : runUnitSystem factor t = some (defs, [])) :
    (defs.units.map fun U => (U.name, U.symbol)).Perm (t.units.flatMap UnitTemplate.promised) ∧
    (∀ v ∈ t.units, v.promised.length = (v.prefixes.length + 1) * (v.aliases.length + 1)) ∧
    (∀ v ∈ t.units, ∀ e, e ∈ v.promised ↔
      e = (v.name, v.symbol) ∨ (∃ p ∈ v.prefixes, e = (p.name ++ v.name, v.symbol.map (p.short ++ ·))) ∨
      (∃ a ∈ v.aliases, e = (a, none)) ∨ (∃ p ∈ v.prefixes, ∃ a ∈ v.aliases, e = (p.name ++ a, none))) := by
  refine ⟨(C10_complete factor t defs accepted).2.1, fun v _ => ?_, fun v _ e => ?_⟩
  · have : ∀ (f : Option Prefix → Option Str → Str × Option Str) (l : List (Option Prefix)),
        (l.flatMap fun pre => (none :: v.aliases.map some).map (f pre)).length = l.length * (v.aliases.length + 1) := by
      intro f l
      induction l with
      | nil => simp
      | cons x l ih => rw [List.flatMap_cons, List.length_append, ih]; simp; ring
    unfold UnitTemplate.promised
    erw [this]; simp
  · unfold UnitTemplate.promised
    simp only [List.flatMap_cons, List.map_cons, List.map_map, List.mem_append, List.mem_cons, List.mem_map,
      Function.comp_apply, List.mem_flatMap, exists_exists_and_eq_and]
    constructor
    · rintro ((rfl | ⟨a, ha, rfl⟩) | ⟨p, hp, rfl | ⟨a, ha, rfl⟩⟩)
      · exact .inl rfl
      · exact .inr (.inr (.inl ⟨a, ha, rfl⟩))
      · exact .inr (.inl ⟨p, hp, rfl⟩)
      · exact .inr (.inr (.inr ⟨p, hp, a, ha, rfl⟩))
    · rintro (rfl | ⟨p, hp, rfl⟩ | ⟨a, ha, rfl⟩ | ⟨p, hp, a, ha, rfl⟩)
      · exact .inl (.inl rfl)
      · exact .inr ⟨p, hp, .inl rfl⟩
      · exact .inl (.inr ⟨a, ha, rfl⟩)
      · exact .inr ⟨p, hp, .inr ⟨a, ha, rfl⟩⟩

end

/-- **C15 (the factors, with the code's `f64` magnitudes).** If the unit's factor is a storable double `x`, the alias has exactly the
same factor, and the prefixed units the correctly rounded product of `10^k` (as rounded in the prefix table) and `x`. -/
theorem C15_factors (std : Bool) (powf) (x : Fl) (hx : Storable x) (p : Prefix) (hp : Storable (.num false (f64Fmt.round p.literal))) :
    (magOpsInt (buildLib std powf)).mul (magOpsInt (buildLib std powf)).one (Magnitude.fromF64 x) = Magnitude.fromF64 x ∧
    (magOpsRatio (buildLib std powf)).mul (magOpsRatio (buildLib std powf)).one (Magnitude.fromF64 x) = Magnitude.fromF64 x ∧
    (magOpsInt (buildLib std powf)).mul p.factor (Magnitude.fromF64 x) =
      Magnitude.fromF64 (f64Fmt.mul (.num false (f64Fmt.round p.literal)) x) ∧
    (magOpsRatio (buildLib std powf)).mul p.factor (Magnitude.fromF64 x) =
      Magnitude.fromF64 (f64Fmt.mul (.num false (f64Fmt.round p.literal)) x) :=
  ⟨(C44_one_neutral std powf x hx).2.1, (C44_one_neutral std powf x hx).2.1, (C44_is_f64_arithmetic std powf _ x hp hx).1,
    (C44_is_f64_arithmetic std powf _ x hp hx).1⟩

-- The hypotheses are met by the example system of the repository's tests, whose `meters` has 16 prefixes.
section
attribute [local instance] Sample.exactMag
example : (∃ defs, runUnitSystem Sample.exactFactor Sample.sample = some (defs, [])) ∧
    (UnresolvedTemplates.expand 1 Sample.exactFactor Sample.sample).GoodExponents ∧
    ∃ v ∈ Sample.sample.units, v.prefixes.length = 16 :=
  ⟨Sample.sample_accepted, C07_goodExponents_int _,
    ⟨Sample.baseUnit (str!"meters") (str!"m") (str!"Length") (metricPrefixes []), by simp [Sample.sample], by decide⟩⟩
end

/-- A two-prefix, two-alias statement, with a base unit it is defined from. -/
def C15.tiny : UnresolvedTemplates Int ℚ where
  quantityTypes := [str!"Quantity"]
  dimensionTypes := [str!"Dimension"]
  dimensions := [⟨str!"Length", .base ()⟩]
  units := [⟨str!"meters", some (str!"m"), [str!"metres", str!"metros"], [.kilo, .milli], none, .base (str!"Length")⟩]
  constants := []

attribute [local instance] Sample.exactMag in
set_option synthInstance.maxSize 100000 in
example : (resolveDefsFuel (UnresolvedTemplates.expand 1 Sample.exactFactor C15.tiny)).map
      (fun r => (r.1.units.map fun U => (U.name, U.symbol, U.mag), r.2)) =
    some ([(str!"kilometers", some (str!"km"), 1000), (str!"kilometres", none, 1000), (str!"kilometros", none, 1000),
      (str!"meters", some (str!"m"), 1), (str!"metres", none, 1), (str!"metros", none, 1),
      (str!"millimeters", some (str!"mm"), 1 / 1000), (str!"millimetres", none, 1 / 1000), (str!"millimetros", none, 1 / 1000)], []) := by
  decide +kernel

-- every prefix factor is storable
example : ∀ p ∈ Prefix.all, Storable (.num false (f64Fmt.round p.literal)) := by
  intro p hp
  refine ⟨?_, Or.inr ?_⟩
  · exact round_le_inf _ _
  · revert p; decide +kernel

end Diman
