import Verif.Proofs.Text
import Verif.Examples.TextSample
/-!
# C26 — Debug output names exactly the quantity's dimension
`debugFmt K defs d value` is `{:?}` of a quantity of dimension `d` whose stored value prints as `value`; `none` is a panic (or generated code
that does not compile).
-/
set_option linter.unusedSectionVars false
namespace Diman
open LawfulExponent
section
variable {E K M : Type} [Exponent E] [LawfulExponent E] [FieldOps E] [LawfulFieldOps E] [WrittenExponent E] [ShowExponent E] [MagOps E M]
  [Prims K M] [TextPrims K M] [LawfulText E K M]

/-- The terms printed for a dimension. -/
structure PrintedTerms (defs : Defs E M) (d : DimVal E) (terms : List (UnitTerm E M)) : Prop where
  /-- every printed symbol is that of a unit of the system -/
  units : ∀ u ∈ terms, u.unit ∈ defs.units ∧ u.unit.symbol = some u.symbol
  /-- whose conversion factor is one -/
  one : ∀ u ∈ terms, MagOps.isOne E u.unit.mag = true
  /-- and the exponents add up to the dimension -/
  dimension : d.vec = defs.baseDimensions.map fun k => (terms.map fun u => u.power * u.unit.dims.expo k).sum
  /-- no exponent is printed that is not an exponent of the dimension -/
  exponents : ∀ u ∈ terms, ∀ e, u.exponent = some e → e ∈ d

theorem debugTable {factor : Prefix → M} {t : UnresolvedTemplates E M} {defs : Defs E M}
    (accepted : runUnitSystem factor t = some (defs, []))
    (literals : (UnresolvedTemplates.expand (MagOps.one E) factor t).LitExponents (WrittenExponent.Ok : E → Prop))
    (distinct : defs.baseDimensions.Nodup) :
    ∃ tbl : List (TableUnit E K), unitTable M defs.baseDimensions (defs.units.filter fun u => MagOps.isOne E u.mag) = some tbl :=
  unitTable_isSome
    (fun u hu => by
      obtain ⟨v, hv, _⟩ := C18_exponents factor t defs accepted literals distinct _ (unit_mem_allDims (List.mem_filter.1 hu).1)
      exact ⟨v, hv⟩)
    (fun u hu _ => by
      rw [LawfulText.isOne_into (E := E) (by simpa using (List.mem_filter.1 hu).2)]
      exact LawfulText.one_finite E)

/-- The unit dimension expression of a base dimension. -/
theorem baseExpr {bd : List Str} (hbd : bd.Nodup) {b : Str} (hb : b ∈ bd) :
    ∃ v : DimVal E, dimensionExpr bd [(b, (Exponent.one : E))] = some v ∧ v.Canonical ∧
      v.vec = bd.map fun k => if k = b then (1 : ℚ) else 0 := by
  obtain ⟨v, h1, h2, h3⟩ := dimensionExpr_spec (E := E) hbd (d := [(b, Exponent.one)]) (by simp)
    (fun kv hkv => by simp only [List.mem_singleton] at hkv; subst hkv; exact ⟨hb, WrittenExponent.one_ok⟩)
  refine ⟨v, h1, h2, h3.trans (List.map_congr_left fun k _ => ?_)⟩
  unfold Dims.expo
  simp only [Dims.get]
  by_cases h : b = k
  · subst h; simp [one_val]
  · rw [if_neg h, if_neg (Ne.symm h)]

/-- In a system where every base dimension has a base unit, the table of Debug contains a unit for every base dimension. -/
theorem baseUnitFound {factor : Prefix → M} {t : UnresolvedTemplates E M} {defs : Defs E M}
    (accepted : runUnitSystem factor t = some (defs, []))
    (literals : (UnresolvedTemplates.expand (MagOps.one E) factor t).LitExponents (WrittenExponent.Ok : E → Prop))
    (hasBase : ∀ d ∈ t.dimensions, d.rhs = .base () → ∃ v ∈ t.units, v.definition = .base d.name)
    {tbl : List (TableUnit E K)}
    (ht : unitTable M defs.baseDimensions (defs.units.filter fun u => MagOps.isOne E u.mag) = some tbl)
    (distinct : defs.baseDimensions.Nodup) {b : Str} (hb : b ∈ defs.baseDimensions) {v : DimVal E}
    (hv : dimensionExpr defs.baseDimensions [(b, (Exponent.one : E))] = some v) : ∃ tu, firstUnitFor tbl v = some tu := by
  obtain ⟨res, h⟩ := accepted_of_run accepted
  have hb' := hb
  rw [h.base_dims] at hb'
  simp only [baseDimensions, List.mem_map, List.mem_filter] at hb'
  obtain ⟨d, ⟨hd, hdb⟩, rfl⟩ := hb'
  have hdr : d.rhs = .base () := by
    unfold DimensionEntry.isBase at hdb
    cases hr : d.rhs with
    | base b => rfl
    | expression ex => rw [hr] at hdb; simp at hdb
  obtain ⟨w, hw, hwd⟩ := hasBase d hd hdr
  obtain ⟨_, U, hU, hUn, hUb, hUm, hUe⟩ := (C13_base_units factor t defs accepted (good_of_literals literals)).1 w hw _ hwd
  have hsome : U.symbol.isSome := by
    have := h.base_symbols
    unfold checkBaseSymbols at this
    rw [List.filterMap_eq_nil_iff] at this
    have := this U hU
    cases hs : U.symbol with
    | none => simp [hUb, hs] at this
    | some s => rfl
  obtain ⟨s, hs⟩ := Option.isSome_iff_exists.1 hsome
  have hmem : U ∈ defs.units.filter fun u => MagOps.isOne E u.mag :=
    List.mem_filter.2 ⟨hU, by rw [hUm]; simpa using LawfulText.one_isOne (E := E) (K := K) (M := M)⟩
  obtain ⟨tu, htu, ho⟩ := (unitTable_spec ht).2 U hmem s hs
  obtain ⟨c1, e1⟩ := unit_dimension h literals hU ho.2.1
  obtain ⟨v', hv', c2, e2⟩ := baseExpr (E := E) distinct hb
  rw [hv, Option.some.injEq] at hv'
  subst hv'
  refine find?_isSome_of htu ?_
  rw [decide_eq_true_eq]
  refine DimVal.ext c1 c2 ?_
  rw [e1, e2]
  exact List.map_congr_left fun k _ => hUe k

/-- `C26_debug_partial`, with the additional fact that nothing cancels in the printed exponents. -/
theorem debug_terms (factor : Prefix → M) (t : UnresolvedTemplates E M) (defs : Defs E M)
    (accepted : runUnitSystem factor t = some (defs, []))
    (literals : (UnresolvedTemplates.expand (MagOps.one E) factor t).LitExponents (WrittenExponent.Ok : E → Prop))
    (distinct : defs.baseDimensions.Nodup)
    (hasBase : ∀ d ∈ t.dimensions, d.rhs = .base () → ∃ v ∈ t.units, v.definition = .base d.name)
    (d : DimVal E) (fields : d.length = defs.baseDimensions.length) (value : Str) :
    ∃ terms, PrintedTerms defs d terms ∧ debugFmt K defs d value = some (value ++ (terms.map UnitTerm.text).flatten) ∧
      ((d.vec.map fun q => |q|) = defs.baseDimensions.map fun k => (terms.map fun u => |u.power * u.unit.dims.expo k|).sum) ∧
      (∀ u ∈ terms, ∀ k ∈ defs.baseDimensions, u.unit.dims.expo k ∈ d.vec ∨ u.unit.dims.expo k = 0 ∨ u.unit.dims.expo k = 1) := by
  obtain ⟨res, h⟩ := accepted_of_run accepted
  obtain ⟨tbl, ht⟩ := debugTable (K := K) accepted literals distinct
  unfold debugFmt
  simp only [ht, Option.bind_eq_bind, Option.bind_some]
  have hfrom : ∀ {tu : TableUnit E K}, tu ∈ tbl → ∃ U, U ∈ defs.units ∧ MagOps.isOne E U.mag = true ∧ U.symbol = some tu.symbol ∧
      dimensionExpr defs.baseDimensions U.dims = some tu.dimension ∧ tu.dimension.vec = defs.baseDimensions.map U.dims.expo := by
    intro tu htu
    obtain ⟨U, hU, ho⟩ := (unitTable_spec ht).1 tu htu
    obtain ⟨hU, h1⟩ := List.mem_filter.1 hU
    exact ⟨U, hU, by simpa using h1, ho.1, ho.2.1, (unit_dimension h literals hU ho.2.1).2⟩
  unfold debugUnitText
  cases hf : firstUnitFor tbl d with
  | some tu =>
    obtain ⟨hm, hd⟩ := firstUnitFor_some hf
    obtain ⟨U, hU, h1, hs, _, hv⟩ := hfrom hm
    refine ⟨[⟨U, tu.symbol, none⟩], ⟨?_, ?_, ?_, ?_⟩, ?_, ?_, ?_⟩
    · simpa using ⟨hU, hs⟩
    · simpa using h1
    · rw [← hd, hv]
      exact List.map_congr_left fun k _ => by simp [UnitTerm.power]
    · simp
    · simp [UnitTerm.text]
    · rw [← hd, hv, List.map_map]
      exact List.map_congr_left fun k _ => by simp [UnitTerm.power]
    · intro u hu k hk
      rw [List.mem_singleton] at hu
      subst hu
      rw [← hd, hv]
      exact .inl (List.mem_map_of_mem hk)
  | none =>
    simp only
    have main : ∀ (l : List Str) (e : DimVal E), e.length = l.length → l.Nodup → (∀ b ∈ l, b ∈ defs.baseDimensions) →
        ∃ terms : List (UnitTerm E M), (∀ u ∈ terms, u.unit ∈ defs.units ∧ u.unit.symbol = some u.symbol) ∧
          (∀ u ∈ terms, MagOps.isOne E u.unit.mag = true) ∧
          (∀ k ∈ defs.baseDimensions, (terms.map fun u => u.power * u.unit.dims.expo k).sum =
            ((l.zip e.vec).map fun be => if k = be.1 then be.2 else 0).sum) ∧
          (∀ k ∈ defs.baseDimensions, (terms.map fun u => |u.power * u.unit.dims.expo k|).sum =
            ((l.zip (e.vec.map fun q => |q|)).map fun be => if k = be.1 then be.2 else 0).sum) ∧
          (∀ u ∈ terms, ∀ y, u.exponent = some y → y ∈ e) ∧
          (∀ u ∈ terms, ∀ k ∈ defs.baseDimensions, u.unit.dims.expo k = 0 ∨ u.unit.dims.expo k = 1) ∧
          ((l.zip e).mapM fun be => baseSymbolText defs.baseDimensions tbl be.1 be.2).map List.flatten =
            some (terms.map UnitTerm.text).flatten := by
      intro l
      induction l with
      | nil =>
        intro e he _ _
        obtain rfl : e = [] := List.length_eq_zero_iff.1 he
        exact ⟨[], by simp, by simp, by simp, by simp, by simp, by simp, rfl⟩
      | cons b l ih =>
        intro e he hn hl
        cases e with
        | nil => simp at he
        | cons x e =>
          obtain ⟨terms, t1, t2, t3, t3', t6, t7, t4⟩ := ih e (by simpa using he) (List.nodup_cons.1 hn).2 fun b' hb' => hl b' (by simp [hb'])
          obtain ⟨v, hv, vc, ve⟩ := baseExpr (E := E) distinct (hl b (by simp))
          obtain ⟨tu, htu⟩ := baseUnitFound accepted literals hasBase ht distinct (hl b (by simp)) hv
          obtain ⟨hm, hd⟩ := firstUnitFor_some htu
          obtain ⟨U, hU, h1, hs, _, hvec⟩ := hfrom hm
          have hUe : ∀ k ∈ defs.baseDimensions, U.dims.expo k = if k = b then 1 else 0 := by
            rw [hd, ve] at hvec
            exact fun k hk => (List.map_inj_left.1 hvec k hk).symm
          have hexpo : ∀ (sy : Str) (o : Option E), ∀ u ∈ (⟨U, sy, o⟩ : UnitTerm E M) :: terms, ∀ k ∈ defs.baseDimensions,
              u.unit.dims.expo k = 0 ∨ u.unit.dims.expo k = 1 := by
            intro sy o u hu k hk
            rcases List.mem_cons.1 hu with rfl | hu
            · simp only [hUe k hk]
              split
              · exact .inr rfl
              · exact .inl rfl
            · exact t7 u hu k hk
          rw [Option.map_eq_some_iff] at t4
          obtain ⟨txt, t4, t5⟩ := t4
          rw [List.zip_cons_cons, List.mapM_cons]
          simp only [DimVal.vec, List.map_cons, List.zip_cons_cons, List.sum_cons]
          by_cases hone : x = Exponent.one
          · refine ⟨⟨U, tu.symbol, none⟩ :: terms, ?_, ?_, ?_, ?_, ?_, hexpo _ _, ?_⟩
            · simpa using ⟨⟨hU, hs⟩, t1⟩
            · simpa using ⟨h1, t2⟩
            · intro k hk
              rw [List.map_cons, List.sum_cons, t3 k hk, hUe k hk, hone]
              simp [UnitTerm.power, one_val, DimVal.vec]
            · intro k hk
              rw [List.map_cons, List.sum_cons, t3' k hk, hUe k hk, hone]
              simp only [UnitTerm.power, one_val, DimVal.vec, one_mul, abs_one, List.map_map]
              split <;> simp
            · intro u hu y hy
              rcases List.mem_cons.1 hu with rfl | hu
              · simp at hy
              · exact List.mem_cons_of_mem _ (t6 u hu y hy)
            · have : baseSymbolText defs.baseDimensions tbl b x = some (' ' :: tu.symbol) := by
                simp [baseSymbolText, hv, hone, htu]
              rw [this, t4]
              simp [UnitTerm.text, t5]
          · by_cases hzero : x = Exponent.zero
            · refine ⟨terms, t1, t2, ?_, ?_, fun u hu y hy => List.mem_cons_of_mem _ (t6 u hu y hy), t7, ?_⟩
              · intro k hk
                rw [t3 k hk, hzero, zero_val]
                simp [DimVal.vec]
              · intro k hk
                rw [t3' k hk, hzero, zero_val]
                simp [DimVal.vec]
              · have : baseSymbolText defs.baseDimensions tbl b x = some [] := by
                  unfold baseSymbolText
                  simp only [hv, Option.bind_eq_bind, Option.bind_some]
                  rw [if_neg hone, if_neg (by simpa using hzero)]; rfl
                rw [this, t4]
                simp [t5]
            · refine ⟨⟨U, tu.symbol, some x⟩ :: terms, ?_, ?_, ?_, ?_, ?_, hexpo _ _, ?_⟩
              · simpa using ⟨⟨hU, hs⟩, t1⟩
              · simpa using ⟨h1, t2⟩
              · intro k hk
                rw [List.map_cons, List.sum_cons, t3 k hk, hUe k hk]
                simp [UnitTerm.power, DimVal.vec]
              · intro k hk
                rw [List.map_cons, List.sum_cons, t3' k hk, hUe k hk]
                simp only [UnitTerm.power, DimVal.vec, List.map_map]
                split <;> simp
              · intro u hu y hy
                rcases List.mem_cons.1 hu with rfl | hu
                · simp only [Option.some.injEq] at hy; subst hy; simp
                · exact List.mem_cons_of_mem _ (t6 u hu y hy)
              · have : baseSymbolText defs.baseDimensions tbl b x = some (' ' :: (tu.symbol ++ '^' :: ShowExponent.showE x)) := by
                  unfold baseSymbolText
                  simp only [hv, Option.bind_eq_bind, Option.bind_some]
                  rw [if_neg hone, if_pos (by simpa using hzero), htu]; rfl
                rw [this, t4]
                simp [UnitTerm.text, t5]
    obtain ⟨terms, t1, t2, t3, t3', t6, t7, t4⟩ := main defs.baseDimensions d fields distinct (fun b hb => hb)
    have hz : ∀ (l : List Str) (x : List ℚ), x.length = l.length → l.Nodup →
        x = l.map fun k => ((l.zip x).map fun be => if k = be.1 then be.2 else 0).sum := by
      intro l
      induction l with
      | nil => intro x hx _; exact List.length_eq_zero_iff.1 hx
      | cons b l ih =>
        intro x hx hn
        cases x with
        | nil => simp at hx
        | cons q x =>
          obtain ⟨hb, hn⟩ := List.nodup_cons.1 hn
          rw [List.map_cons, List.zip_cons_cons, List.map_cons, List.sum_cons]
          congr 1
          · have : ((l.zip x).map fun be => if b = be.1 then be.2 else 0).sum = 0 := by
              apply List.sum_eq_zero
              intro y hy
              obtain ⟨be, hbe, rfl⟩ := List.mem_map.1 hy
              rw [if_neg]
              rintro rfl
              exact hb (List.of_mem_zip hbe).1
            simp only [if_true, this, add_zero]
          · conv_lhs => rw [ih x (by simpa using hx) hn]
            refine List.map_congr_left fun k hk => ?_
            rw [List.map_cons, List.sum_cons, if_neg (fun e => hb (by rw [← show k = b from e]; exact hk)), zero_add]
    refine ⟨terms, ⟨t1, t2, ?_, t6⟩, by rw [t4]; rfl, ?_, fun u hu k hk => .inr (t7 u hu k hk)⟩
    · exact (hz defs.baseDimensions d.vec (by rw [DimVal.vec_length, fields]) distinct).trans
        (List.map_congr_left fun k hk => (t3 k hk).symm)
    · exact (hz defs.baseDimensions (d.vec.map fun q => |q|) (by rw [List.length_map, DimVal.vec_length, fields]) distinct).trans
        (List.map_congr_left fun k hk => (t3' k hk).symm)

/-- **C26.** In an accepted unit system in which every base dimension has a base unit (and the field names of base dimensions are distinct),
`{:?}` of a quantity of any dimension prints, without panicking, the stored value followed by unit symbols with exponents; every symbol is
that of a unit of conversion factor one, and the exponents add up to exactly the quantity's dimension. (Missing for the full claim: the
condition that every base dimension has a base unit is not enforced by the macro, see `C26_missing_base_unit_refuted`.) -/
theorem C26_debug_partial (factor : Prefix → M) (t : UnresolvedTemplates E M) (defs : Defs E M)
    (accepted : runUnitSystem factor t = some (defs, []))
    (literals : (UnresolvedTemplates.expand (MagOps.one E) factor t).LitExponents (WrittenExponent.Ok : E → Prop))
    (distinct : defs.baseDimensions.Nodup)
    (hasBase : ∀ d ∈ t.dimensions, d.rhs = .base () → ∃ v ∈ t.units, v.definition = .base d.name)
    (d : DimVal E) (fields : d.length = defs.baseDimensions.length) (value : Str) :
    ∃ terms, PrintedTerms defs d terms ∧ debugFmt K defs d value = some (value ++ (terms.map UnitTerm.text).flatten) := by
  obtain ⟨terms, h1, h2, _⟩ := debug_terms (K := K) factor t defs accepted literals distinct hasBase d fields value
  exact ⟨terms, h1, h2⟩

end

/-! ## Concrete runs -/
section
open Sample
attribute [local instance] Sample.exactMag Sample.ratPrims Sample.ratText Sample.ratLawful

/-- Running the macro and Debug on concrete statements. -/
theorem run_debug (t : UnresolvedTemplates Int ℚ) (f : Defs Int ℚ → Bool)
    (h : (resolveDefsFuel (UnresolvedTemplates.expand 1 exactFactor t)).any (fun p => p.2.isEmpty && f p.1) = true) :
    ∃ defs, runUnitSystem exactFactor t = some (defs, []) ∧ f defs = true := by
  unfold runUnitSystem
  rw [resolveDefs_eq_fuel]
  change ∃ defs, resolveDefsFuel (UnresolvedTemplates.expand 1 exactFactor t) = some (defs, []) ∧ _
  cases hr : resolveDefsFuel (UnresolvedTemplates.expand 1 exactFactor t) with
  | none => rw [hr] at h; simp at h
  | some p =>
    rw [hr] at h
    obtain ⟨defs, ds⟩ := p
    simp only [Option.any_some, Bool.and_eq_true, List.isEmpty_iff] at h
    exact ⟨defs, by rw [h.1], h.2⟩

-- The hypotheses are met by the sample system; a joule prints with its unit, an acceleration with powers of base units.
example : (∀ d ∈ sample.dimensions, d.rhs = .base () → ∃ v ∈ sample.units, v.definition = .base d.name) ∧
    ∃ defs, runUnitSystem exactFactor sample = some (defs, []) ∧
      (decide defs.baseDimensions.Nodup && decide (debugFmt ℚ defs [2, -2, 1, 0] (str!"5") = some (str!"5 J")) &&
        decide (debugFmt ℚ defs [1, -2, 0, 0] (str!"5") = some (str!"5 m s^-2"))) = true := by
  refine ⟨fun d hd hr => ?_, run_debug _ _ (by decide +kernel)⟩
  simp only [sample, List.mem_cons, List.not_mem_nil, or_false] at hd
  rcases hd with rfl | rfl | rfl | rfl | rfl | rfl | rfl | rfl | rfl | rfl | rfl <;> first
    | (cases hr; done)
    | exact ⟨_, .tail _ (.head _), rfl⟩
    | exact ⟨_, .tail _ (.tail _ (.head _)), rfl⟩
    | exact ⟨_, .tail _ (.tail _ (.tail _ (.tail _ (.tail _ (.head _))))), rfl⟩
    | exact ⟨_, .tail _ (.tail _ (.tail _ (.tail _ (.tail _ (.tail _ (.tail _ (.tail _ (.tail _ (.head _))))))))), rfl⟩

/-- A unit system with a base dimension but no base unit for it. -/
def noBaseUnit : UnresolvedTemplates Int ℚ where
  quantityTypes := [str!"Quantity"]
  dimensionTypes := [str!"Dimension"]
  dimensions := [⟨str!"Length", .base ()⟩]
  units := []
  constants := []

/-- **C26 fails without a base unit.** A unit system declaring a base dimension without a base unit is accepted without any error, its Debug
implementation compiles (dimensionless quantities print), but printing a length panics (`unwrap` of a missing unit). -/
theorem C26_missing_base_unit_refuted : ∃ defs, runUnitSystem exactFactor noBaseUnit = some (defs, []) ∧
    debugFmt ℚ defs [0] (str!"5") = some (str!"5") ∧ debugFmt ℚ defs [1] (str!"5") = none := by
  obtain ⟨defs, h1, h2⟩ := run_debug noBaseUnit (fun defs => decide (debugFmt ℚ defs [0] (str!"5") = some (str!"5") ∧
    debugFmt ℚ defs [1] (str!"5") = none)) (by decide +kernel)
  exact ⟨defs, h1, by simpa using h2⟩
end
end Diman
