import Verif.Spec.Versions
import Verif.Proofs.TextPanic
/-!
# Reading a text in two versions of a unit system
-/
set_option linter.unusedSectionVars false
namespace Diman
open LawfulExponent

section
variable {E : Type} [Exponent E] [LawfulExponent E] [FieldOps E] [LawfulFieldOps E] [TotalFields E]

theorem field_zero_mul (n : Int) : FieldOps.mul (FieldOps.zero : E) n = some FieldOps.zero := by
  have hz : val (FieldOps.zero : E) = 0 := LawfulFieldOps.zero_val
  have h := TotalFields.mul_isSome (a := (FieldOps.zero : E)) (n := n) (L := 1) (by norm_num) (by norm_num) LawfulFieldOps.zero_canon
    ⟨0, by rw [hz]; simp⟩ (by rw [hz]; norm_num)
  obtain ⟨c, hc⟩ := Option.isSome_iff_exists.1 h
  obtain ⟨c1, c2⟩ := LawfulFieldOps.mul_spec LawfulFieldOps.zero_canon hc
  rw [hc, canon_ext c1 LawfulFieldOps.zero_canon (by rw [c2, hz, zero_mul])]

theorem field_zero_add : FieldOps.add (FieldOps.zero : E) FieldOps.zero = some FieldOps.zero := by
  have hz : val (FieldOps.zero : E) = 0 := LawfulFieldOps.zero_val
  have h := TotalFields.add_isSome (a := (FieldOps.zero : E)) (b := FieldOps.zero) (L := 1) (by norm_num) (by norm_num) LawfulFieldOps.zero_canon
    LawfulFieldOps.zero_canon ⟨0, by rw [hz]; simp⟩ ⟨0, by rw [hz]; simp⟩ (by rw [hz]; norm_num)
  obtain ⟨c, hc⟩ := Option.isSome_iff_exists.1 h
  obtain ⟨c1, c2⟩ := LawfulFieldOps.add_spec LawfulFieldOps.zero_canon LawfulFieldOps.zero_canon hc
  rw [hc, canon_ext c1 LawfulFieldOps.zero_canon (by rw [c2, hz, zero_add])]

theorem map1_map {g : E → Option E} {f F : Str → E} {bd : List Str} (h : ∀ k ∈ bd, g (f k) = some (F k)) :
    DimVal.map1 g (bd.map f) = some (bd.map F) := by
  induction bd with
  | nil => rfl
  | cons k bd ih =>
    simp only [List.map_cons, DimVal.map1, h k (by simp), ih fun k hk => h k (by simp [hk]), Option.bind_eq_bind, Option.bind_some, Option.pure_def]

theorem map1_map_some {g : E → Option E} {f : Str → E} {bd : List Str} {d : DimVal E} (h : DimVal.map1 g (bd.map f) = some d) :
    (∀ k ∈ bd, (g (f k)).isSome) := by
  induction bd generalizing d with
  | nil => simp
  | cons k bd ih =>
    simp only [List.map_cons, DimVal.map1, Option.bind_eq_bind, Option.bind_eq_some_iff] at h
    obtain ⟨a, ha, b, hb, _⟩ := h
    intro j hj
    rcases List.mem_cons.1 hj with rfl | hj
    · rw [ha]; rfl
    · exact ih hb j hj

theorem map2_map {g : E → E → Option E} {f f' F : Str → E} {bd : List Str} (h : ∀ k ∈ bd, g (f k) (f' k) = some (F k)) :
    DimVal.map2 g (bd.map f) (bd.map f') = some (bd.map F) := by
  induction bd with
  | nil => rfl
  | cons k bd ih =>
    simp only [List.map_cons, DimVal.map2, h k (by simp), ih fun k hk => h k (by simp [hk]), Option.bind_eq_bind, Option.bind_some, Option.pure_def]

theorem map2_map_some {g : E → E → Option E} {f f' : Str → E} {bd : List Str} {d : DimVal E}
    (h : DimVal.map2 g (bd.map f) (bd.map f') = some d) : (∀ k ∈ bd, (g (f k) (f' k)).isSome) := by
  induction bd generalizing d with
  | nil => simp
  | cons k bd ih =>
    simp only [List.map_cons, DimVal.map2, Option.bind_eq_bind, Option.bind_eq_some_iff] at h
    obtain ⟨a, ha, b, hb, _⟩ := h
    intro j hj
    rcases List.mem_cons.1 hj with rfl | hj
    · rw [ha]; rfl
    · exact ih hb j hj

/-- A dimension written for both systems has the same exponents in both. -/
theorem dimensionExpr_both {bd bd' : List Str} {dims : Dims E} {d d' : DimVal E} (h : dimensionExpr bd dims = some d)
    (h' : dimensionExpr bd' dims = some d') : ∃ f : Str → E, (∀ k, k ∉ bd → f k = FieldOps.zero) ∧ d = bd.map f ∧ d' = bd'.map f := by
  let f : Str → E := fun k => match dims.find? (fun kv => kv.1 = k) with
    | some (_, v) => (FieldOps.entry v).getD FieldOps.zero
    | none => FieldOps.zero
  have key : ∀ {bd : List Str} {d : DimVal E}, dimensionExpr bd dims = some d → (∀ k ∈ dims.map Prod.fst, k ∈ bd) ∧ d = bd.map f := by
    intro bd d h
    unfold dimensionExpr structExpr at h
    split at h
    · cases h
    split at h
    · cases h
    rename_i hk
    split at h
    · cases h
    refine ⟨by push Not at hk; exact hk.2, ?_⟩
    clear hk
    have hF := mapM_option_some h
    clear h
    rename_i h1 h2
    clear h1 h2
    induction hF with
    | nil => rfl
    | @cons k a bd d hx _ ih =>
      rw [List.map_cons, ← ih]
      congr 1
      simp only [f]
      split at hx
      · rename_i hfd
        rw [hfd]
        simp only
        rw [hx]; rfl
      · rename_i hfd
        rw [hfd]
        simpa using hx.symm
  obtain ⟨k1, e1⟩ := key h
  obtain ⟨_, e2⟩ := key h'
  refine ⟨f, fun k hk => ?_, e1, e2⟩
  have : dims.find? (fun kv => decide (kv.1 = k)) = none := by
    rw [List.find?_eq_none]
    intro kv hkv
    simp only [decide_eq_true_eq]
    rintro rfl
    exact hk (k1 _ (List.mem_map_of_mem hkv))
  simp only [f, this]

theorem exponentAt_map {bd : List Str} {f : Str → E} (hz : ∀ k, k ∉ bd → f k = FieldOps.zero) (k : Str) :
    exponentAt bd (bd.map f) k = val (f k) := by
  unfold exponentAt
  by_cases hk : k ∈ bd
  · clear hz
    induction bd with
    | nil => cases hk
    | cons b bd ih =>
      simp only [List.map_cons, List.zip_cons_cons, List.find?_cons]
      by_cases hb : b = k
      · subst hb; simp
      · rw [decide_eq_false hb]
        exact ih (by rcases List.mem_cons.1 hk with h | h; exact absurd h.symm hb; exact h)
  · have : (bd.zip (bd.map f)).find? (fun p => decide (p.1 = k)) = none := by
      rw [List.find?_eq_none]
      intro p hp
      simp only [decide_eq_true_eq]
      rintro rfl
      exact hk (List.of_mem_zip hp).1
    rw [this, hz k hk, LawfulFieldOps.zero_val]; rfl

theorem vec_exponentAt {bd : List Str} (hn : bd.Nodup) {d : DimVal E} (hl : d.length = bd.length) : d.vec = bd.map (exponentAt bd d) := by
  induction bd generalizing d with
  | nil => cases d <;> simp_all [DimVal.vec]
  | cons b bd ih =>
    cases d with
    | nil => simp at hl
    | cons e d =>
      rw [List.nodup_cons] at hn
      have := ih hn.2 (d := d) (by simpa using hl)
      simp only [DimVal.vec, List.map_cons] at this ⊢
      rw [this]
      congr 1
      · simp [exponentAt]
      · refine List.map_congr_left fun k hk => ?_
        have : b ≠ k := by rintro rfl; exact hn.1 hk
        simp [exponentAt, this]

variable {K M : Type} [MagOps E M] [Prims K M] [TextPrims K M]

/-- The dimensions of the same unit powers, added up in both systems. -/
theorem foldlM_both {bd bd' : List Str} {vs : UnitPowers E M} {us us' : List (TableUnit E K × Int)}
    (hv : List.Forall₂ (fun (v : UnitDef E M × Int) (u : TableUnit E K × Int) => v.2 = u.2 ∧ dimensionExpr bd v.1.dims = some u.1.dimension) vs us)
    (hv' : List.Forall₂ (fun (v : UnitDef E M × Int) (u : TableUnit E K × Int) => v.2 = u.2 ∧ dimensionExpr bd' v.1.dims = some u.1.dimension) vs us')
    {f0 : Str → E} (hz : ∀ k, k ∉ bd → f0 k = FieldOps.zero) {d : DimVal E}
    (h : us.foldlM (fun d ue => (DimVal.mul ue.1.dimension ue.2).bind fun x => DimVal.add d x) (bd.map f0) = some d) :
    ∃ f : Str → E, (∀ k, k ∉ bd → f k = FieldOps.zero) ∧ d = bd.map f ∧
      us'.foldlM (fun d ue => (DimVal.mul ue.1.dimension ue.2).bind fun x => DimVal.add d x) (bd'.map f0) = some (bd'.map f) := by
  induction hv generalizing us' f0 with
  | nil =>
    cases hv'
    simp only [List.foldlM_nil, Option.pure_def, Option.some.injEq] at h
    exact ⟨f0, hz, h.symm, rfl⟩
  | @cons v u vs us hvu _ ih =>
    cases hv' with
    | @cons _ u' _ us' hvu' hrest =>
      obtain ⟨f, fz, e1, e2⟩ := dimensionExpr_both hvu.2 hvu'.2
      rw [List.foldlM_cons, bindM_eq_some] at h
      obtain ⟨d', h1, h2⟩ := h
      rw [Option.bind_eq_some_iff] at h1
      obtain ⟨x, h3, h4⟩ := h1
      let g : Str → E := fun k => (FieldOps.mul (f k) v.2).getD FieldOps.zero
      have hg : ∀ k, k ∈ bd ∨ k ∉ bd → FieldOps.mul (f k) v.2 = some (g k) := by
        intro k hk
        rcases hk with hk | hk
        · rw [e1, ← hvu.1] at h3
          have := map1_map_some h3 k hk
          simp only [g]
          cases hm : FieldOps.mul (f k) v.2 with
          | none => rw [hm] at this; cases this
          | some y => rfl
        · simp only [g, fz k hk, field_zero_mul, Option.getD_some]
      have hx : x = bd.map g := by
        rw [e1, ← hvu.1] at h3
        have := map1_map (bd := bd) (g := fun a => FieldOps.mul a v.2) (f := f) (F := g) fun k hk => hg k (.inl hk)
        rw [DimVal.mul, this] at h3
        injection h3 with h3; exact h3.symm
      subst hx
      let q : Str → E := fun k => (FieldOps.add (f0 k) (g k)).getD FieldOps.zero
      have gz : ∀ k, k ∉ bd → g k = FieldOps.zero := fun k hk => by simp only [g, fz k hk, field_zero_mul, Option.getD_some]
      have hq : ∀ k, FieldOps.add (f0 k) (g k) = some (q k) := by
        intro k
        by_cases hk : k ∈ bd
        · have := map2_map_some h4 k hk
          simp only [q]
          cases hm : FieldOps.add (f0 k) (g k) with
          | none => rw [hm] at this; cases this
          | some y => rfl
        · simp only [q, hz k hk, gz k hk, field_zero_add, Option.getD_some]
      have hd' : d' = bd.map q := by
        rw [DimVal.add, map2_map fun k _ => hq k] at h4
        injection h4 with h4; exact h4.symm
      subst hd'
      obtain ⟨F, Fz, eF, hF⟩ := ih hrest (f0 := q) (fun k hk => by simp only [q, hz k hk, gz k hk, field_zero_add, Option.getD_some]) h2
      refine ⟨F, Fz, eF, ?_⟩
      have hm : DimVal.mul u'.1.dimension u'.2 = some (bd'.map g) := by
        rw [e2, ← hvu'.1]
        exact map1_map fun k _ => hg k (em _)
      rw [List.foldlM_cons, hm]
      simp only [Option.bind_some]
      rw [show DimVal.add (bd'.map f0) (bd'.map g) = some (bd'.map q) from map2_map fun k _ => hq k]
      exact hF

variable [WrittenExponent E]

/-- The unit words of a text that is readable in the old system, read in the new one. -/
theorem readUnits_both {factor factor' : Prefix → M} {t t' : UnresolvedTemplates E M} {defs defs' : Defs E M}
    {res res' : BMap (ResolvedItem E M)} (h : Accepted (UnresolvedTemplates.expand (MagOps.one E) factor t) defs res)
    (h' : Accepted (UnresolvedTemplates.expand (MagOps.one E) factor' t') defs' res') (keeps : KeepsSymbols defs defs')
    {tbl tbl' : List (TableUnit E K)} (ht : unitTable M defs.baseDimensions defs.units = some tbl)
    (ht' : unitTable M defs'.baseDimensions defs'.units = some tbl') {ws : List Str} {d : DimVal E} {x : K}
    (hr : readUnits M tbl (DimVal.none defs.baseDimensions.length) (Prims.one M .f64) ws = .ok (d, x)) :
    ∃ f : Str → E, (∀ k, k ∉ defs.baseDimensions → f k = FieldOps.zero) ∧ d = defs.baseDimensions.map f ∧
      readUnits M tbl' (DimVal.none defs'.baseDimensions.length) (Prims.one M .f64) ws = .ok (defs'.baseDimensions.map f, x) := by
  obtain ⟨us, w1, w2, w3⟩ := readUnits_ok hr
  obtain ⟨vs, n1, n2⟩ := tableWords_names h ht w1
  have names' : ∃ vs' : UnitPowers E M, NamesUnits defs' ws vs' ∧
      List.Forall₂ (fun (v v' : UnitDef E M × Int) => v.2 = v'.2 ∧ v'.1.dims = v.1.dims ∧ v'.1.mag = v.1.mag) vs vs' := by
    clear n2 w1 w2 w3 hr
    induction n1 with
    | nil => exact ⟨[], .nil, .nil⟩
    | @cons w v ws vs hx _ ih =>
      obtain ⟨vs', g1, g2⟩ := ih
      obtain ⟨hV, sym, hs, hw⟩ := hx
      obtain ⟨V', hV', s1, s2, s3⟩ := keeps _ hV _ hs
      exact ⟨(V', v.2) :: vs', .cons ⟨hV', sym, s1, hw⟩ g1, .cons ⟨rfl, s2, s3⟩ g2⟩
  obtain ⟨vs', n1', same⟩ := names'
  obtain ⟨us', w1', n2'⟩ := names_tableWords h' ht' n1'
  have f1 : List.Forall₂ (fun (v : UnitDef E M × Int) (u : TableUnit E K × Int) => v.2 = u.2 ∧
      dimensionExpr defs.baseDimensions v.1.dims = some u.1.dimension) vs us := n2.imp fun _ _ hh => ⟨hh.2.1, hh.2.2.2.1⟩
  have f2 : List.Forall₂ (fun (v : UnitDef E M × Int) (u : TableUnit E K × Int) => v.2 = u.2 ∧
      dimensionExpr defs'.baseDimensions v.1.dims = some u.1.dimension) vs us' := by
    clear n1 n2 n1' w1' f1
    induction same generalizing us' with
    | nil => cases n2'; exact .nil
    | @cons v v' vs vs' hx _ ih =>
      cases n2' with
      | cons hy hrest => exact .cons ⟨hx.1.trans hy.2.1, by rw [← hx.2.1]; exact hy.2.2.2.1⟩ (ih _ hrest)
  have nz : ∀ bd : List Str, (DimVal.none bd.length : DimVal E) = bd.map fun _ => FieldOps.zero := fun bd => by
    rw [DimVal.none, List.map_const']
  rw [nz] at w3
  obtain ⟨f, fz, e1, e2⟩ := foldlM_both f1 f2 (fun _ _ => rfl) w3
  refine ⟨f, fz, e1, ?_⟩
  rw [nz, readUnits_of w1' _ e2]
  have hf1 : x = vs.factor K := by rw [w2]; exact factor_eq n2
  have hf2 := factor_eq n2'
  have hf3 : vs'.factor K = vs.factor K := by
    unfold UnitPowers.factor
    clear n1 n2 n1' w1' f1 f2 hf1 hf2 n2'
    generalize (Prims.one M .f64 : K) = y
    induction same generalizing y with
    | nil => rfl
    | cons hx _ ih => rw [List.foldl_cons, List.foldl_cons, hx.1, hx.2.2]; exact ih _
  rw [hf2, hf3, hf1]

/-- The dimension read in the new system is the requested one. -/
theorem target_eq {bd bd' : List Str} (hn : bd'.Nodup) {target target' : DimVal E} (hl : target'.length = bd'.length)
    (hc : target'.Canonical) (same : SameDimension bd target bd' target') {f : Str → E} (hz : ∀ k, k ∉ bd → f k = FieldOps.zero)
    (ht : target = bd.map f) (hcan : target.Canonical) : bd'.map f = target' := by
  have hcf : ∀ k, Canon (f k) := fun k => by
    by_cases hk : k ∈ bd
    · exact hcan _ (by rw [ht]; exact List.mem_map_of_mem hk)
    · rw [hz k hk]; exact LawfulFieldOps.zero_canon
  refine DimVal.ext (fun e he => ?_) hc ?_
  · obtain ⟨k, _, rfl⟩ := List.mem_map.1 he
    exact hcf k
  · rw [vec_exponentAt hn hl]
    simp only [DimVal.vec, List.map_map]
    refine List.map_congr_left fun k _ => ?_
    rw [← same k, ht, exponentAt_map hz]; rfl

/-- Reading a text in the new system. -/
theorem deserialize_both {factor factor' : Prefix → M} {t t' : UnresolvedTemplates E M} {defs defs' : Defs E M}
    {res res' : BMap (ResolvedItem E M)} (h : Accepted (UnresolvedTemplates.expand (MagOps.one E) factor t) defs res)
    (hl : (UnresolvedTemplates.expand (MagOps.one E) factor t).LitExponents (WrittenExponent.Ok : E → Prop))
    (h' : Accepted (UnresolvedTemplates.expand (MagOps.one E) factor' t') defs' res') (keeps : KeepsSymbols defs defs')
    {s : Storage} {target target' : DimVal E} (hn : defs'.baseDimensions.Nodup) (hlen : target'.length = defs'.baseDimensions.length)
    (hc : target'.Canonical) (same : SameDimension defs.baseDimensions target defs'.baseDimensions target') {text : Str} {r : Raw K}
    (run : deserializeStr M defs s target text = some (.ok r)) {o : Outcome (Raw K)}
    (compiled : deserializeStr M defs' s target' text = some o) : o = .ok r := by
  unfold deserializeStr at run compiled
  rw [bindM_eq_some] at run compiled
  obtain ⟨tbl, ht, run⟩ := run
  obtain ⟨tbl', ht', compiled⟩ := compiled
  have key : ∀ {ws : List Str} {d : DimVal E} {x : K},
      readUnits M tbl (DimVal.none defs.baseDimensions.length) (Prims.one M .f64) ws = .ok (d, x) → d = target →
      readUnits M tbl' (DimVal.none defs'.baseDimensions.length) (Prims.one M .f64) ws = .ok (target', x) := by
    intro ws d x hr hd
    obtain ⟨f, fz, e1, e2⟩ := readUnits_both h h' keeps ht ht' hr
    obtain ⟨vs, _, _, hcan, _⟩ := (readUnits_spec h hl ht ws).1 d x hr
    rw [e2, target_eq hn hlen hc same fz (hd ▸ e1) (hd ▸ hcan)]
  cases hs : s.isFloat
  · simp only [hs, Bool.false_eq_true, if_false, pure_eq_some] at run compiled
    rw [← compiled]
    unfold visitStrVector at run ⊢
    simp only at run ⊢
    split at run
    · cases run
    split at run
    · cases run
    split at run
    · cases run
    rename_i c1 c2 c3
    rw [if_neg c1, if_neg c2, if_neg c3]
    simp only [Outcome.bind_ok, Outcome.orError_ok] at run
    obtain ⟨xs, hx, ⟨d, y⟩, hr, hm⟩ := run
    unfold ifDimensionsMatch at hm
    split at hm
    · rename_i hd
      simp only at hd
      simp only [hx, Outcome.orError, Outcome.bind]
      rw [key hr hd]
      simp only [ifDimensionsMatch, if_true]
      exact hm
    · cases hm
  · simp only [hs, if_true, pure_eq_some] at run compiled
    rw [← compiled]
    unfold visitStrFloat at run ⊢
    cases hw : splitWs (trim text) with
    | nil => rw [hw] at run; cases run
    | cons w ws =>
      rw [hw] at run
      simp only [Outcome.bind_ok, Outcome.orError_ok] at run
      obtain ⟨x, hx, ⟨d, y⟩, hr, hm⟩ := run
      unfold ifDimensionsMatch at hm
      split at hm
      · rename_i hd
        simp only at hd
        simp only [hx, Outcome.orError, Outcome.bind]
        rw [key hr hd]
        simp only [ifDimensionsMatch, if_true]
        exact hm
      · cases hm

end
end Diman
