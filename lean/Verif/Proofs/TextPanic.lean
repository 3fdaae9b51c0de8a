import Verif.Proofs.Text
import Verif.Proofs.NoOverflow
/-! When reading units does not panic. -/
set_option linter.unusedSectionVars false
namespace Diman
open LawfulExponent

section
variable {E K M : Type} [Exponent E] [LawfulExponent E] [FieldOps E] [LawfulFieldOps E] [TotalFields E] [WrittenExponent E] [MagOps E M]
  [Prims K M] [TextPrims K M]

theorem DimVal.mul_isSome {d : DimVal E} {bd : List Str} {f : Str → ℚ} {n : Int} {L : Nat} (hL : 0 < L) (hL2 : L < 2 ^ 63)
    (hc : d.Canonical) (hv : d.vec = bd.map f) (hden : ∀ k ∈ bd, DenomDvd L (f k)) (hb : ∀ k ∈ bd, |f k * n| * L < 2 ^ 63) :
    ∃ x, DimVal.mul d n = some x := by
  rw [← Option.isSome_iff_exists]
  unfold DimVal.mul
  rw [DimVal.map1_isSome]
  intro a ha
  have hm : val a ∈ d.vec := List.mem_map_of_mem ha
  rw [hv] at hm
  obtain ⟨k, hk, he⟩ := List.mem_map.1 hm
  exact TotalFields.mul_isSome hL hL2 (hc a ha) (by rw [← he]; exact hden k hk) (by rw [← he]; exact hb k hk)

theorem DimVal.add_isSome {a b : DimVal E} {bd : List Str} {f g : Str → ℚ} {L : Nat} (hL : 0 < L) (hL2 : L ^ 2 < 2 ^ 63)
    (ha : a.Canonical) (hb : b.Canonical) (va : a.vec = bd.map f) (vb : b.vec = bd.map g) (hf : ∀ k ∈ bd, DenomDvd L (f k))
    (hg : ∀ k ∈ bd, DenomDvd L (g k)) (h : ∀ k ∈ bd, (|f k| + |g k|) * L ^ 2 < 2 ^ 63) : ∃ x, DimVal.add a b = some x := by
  unfold DimVal.add
  induction bd generalizing a b with
  | nil =>
    simp only [List.map_nil, DimVal.vec, List.map_eq_nil_iff] at va vb
    subst va; subst vb
    exact ⟨[], rfl⟩
  | cons k bd ih =>
    cases a with
    | nil => simp [DimVal.vec] at va
    | cons x a =>
      cases b with
      | nil => simp [DimVal.vec] at vb
      | cons y b =>
        simp only [DimVal.vec, List.map_cons, List.cons.injEq] at va vb
        obtain ⟨z, hz⟩ := ih (a := a) (b := b) (fun e he => ha e (by simp [he])) (fun e he => hb e (by simp [he])) va.2 vb.2
          (fun k hk => hf k (by simp [hk])) (fun k hk => hg k (by simp [hk])) (fun k hk => h k (by simp [hk]))
        obtain ⟨w, hw⟩ := Option.isSome_iff_exists.1 (TotalFields.add_isSome (a := x) (b := y) hL hL2 (ha x (by simp)) (hb y (by simp))
          (by rw [va.1]; exact hf k (by simp)) (by rw [vb.1]; exact hg k (by simp)) (by rw [va.1, vb.1]; exact h k (by simp)))
        refine ⟨w :: z, ?_⟩
        simp only [DimVal.map2, hw, hz]
        rfl

theorem foldlM_isSome {bd : List Str} {us : List (TableUnit E K × Int)} {vs : UnitPowers E M} {L : Nat} (hL : 0 < L)
    (hL2 : L ^ 2 < 2 ^ 63)
    (hv : List.Forall₂ (fun (v : UnitDef E M × Int) (u : TableUnit E K × Int) => v.2 = u.2 ∧ u.1.dimension.Canonical ∧
      u.1.dimension.vec = bd.map v.1.dims.expo) vs us)
    (hden : ∀ v ∈ vs, ∀ k ∈ bd, DenomDvd L (v.1.dims.expo k))
    {d0 : DimVal E} {g : Str → ℚ} (hc : d0.Canonical) (h0 : d0.vec = bd.map g) (hg : ∀ k ∈ bd, DenomDvd L (g k))
    (hb : ∀ k ∈ bd, (|g k| + (vs.map fun v => |(v.2 : ℚ) * v.1.dims.expo k|).sum) * L ^ 2 < 2 ^ 63) :
    ∃ d, us.foldlM (fun d ue => (DimVal.mul ue.1.dimension ue.2).bind fun x => DimVal.add d x) d0 = some d := by
  have hL3 : L < 2 ^ 63 := lt_of_le_of_lt (Nat.le_self_pow (by norm_num) L) hL2
  have hLq : (L : ℚ) ≤ L ^ 2 := by exact_mod_cast Nat.le_self_pow (by norm_num) L
  induction hv generalizing d0 g with
  | nil => exact ⟨d0, rfl⟩
  | @cons v u vs us hvu _ ih =>
    have hs : ∀ k, 0 ≤ (vs.map fun v => |(v.2 : ℚ) * v.1.dims.expo k|).sum := fun k =>
      List.sum_nonneg fun x hx => by obtain ⟨w, _, rfl⟩ := List.mem_map.1 hx; exact abs_nonneg _
    have hb' : ∀ k ∈ bd, (|g k| + |v.1.dims.expo k * (v.2 : ℚ)| + (vs.map fun v => |(v.2 : ℚ) * v.1.dims.expo k|).sum) * (L : ℚ) ^ 2
        < 2 ^ 63 := fun k hk => by
      have := hb k hk
      rw [List.map_cons, List.sum_cons, mul_comm ((v.2 : ℚ)), ← add_assoc] at this
      exact this
    have hp : ∀ k ∈ bd, (|g k| + |v.1.dims.expo k * (v.2 : ℚ)|) * (L : ℚ) ^ 2 < 2 ^ 63 := fun k hk =>
      lt_of_le_of_lt (mul_le_mul_of_nonneg_right (le_add_of_nonneg_right (hs k)) (by positivity)) (hb' k hk)
    obtain ⟨x, hx⟩ := DimVal.mul_isSome (n := u.2) hL hL3 hvu.2.1 hvu.2.2 (hden v (by simp)) fun k hk => by
      rw [← hvu.1]
      refine lt_of_le_of_lt ?_ (hp k hk)
      exact mul_le_mul (le_add_of_nonneg_left (abs_nonneg _)) hLq (by positivity) (by positivity)
    obtain ⟨cx, vx⟩ := DimVal.mul_spec hvu.2.1 hx
    have vx' : x.vec = bd.map fun k => v.1.dims.expo k * (v.2 : ℚ) := by
      rw [vx, hvu.2.2, List.map_map, hvu.1]; rfl
    obtain ⟨d', hd'⟩ := DimVal.add_isSome hL hL2 hc cx h0 vx' hg (fun k hk => (hden v (by simp) k hk).mul _) hp
    obtain ⟨cd, vd, _⟩ := DimVal.add_spec hc cx hd'
    have vd' : d'.vec = bd.map fun k => g k + v.1.dims.expo k * (v.2 : ℚ) := by
      rw [vd, h0, vx', List.zipWith_map, List.zipWith_self]
    obtain ⟨d, hd⟩ := ih (fun w hw => hden w (by simp [hw])) cd vd' (fun k hk => (hg k hk).add ((hden v (by simp) k hk).mul _))
      fun k hk => lt_of_le_of_lt (mul_le_mul_of_nonneg_right (add_le_add_left (abs_add_le _ _) _) (by positivity)) (hb' k hk)
    refine ⟨d, ?_⟩
    rw [List.foldlM_cons]
    simp only [hx, Option.bind_some, hd', Option.bind_eq_bind]
    exact hd

/-- A panic happens after some known unit words. -/
theorem readUnits_panic {tbl : List (TableUnit E K)} {ws : List Str} {d0 : DimVal E} {f0 : K}
    (h : readUnits M tbl d0 f0 ws = .panic) : ∃ ws' us, ws' <+: ws ∧ TableWords tbl ws' us ∧
      us.foldlM (fun d ue => (DimVal.mul ue.1.dimension ue.2).bind fun x => DimVal.add d x) d0 = none := by
  induction ws generalizing d0 f0 with
  | nil => simp [readUnits] at h
  | cons w ws ih =>
    simp only [readUnits] at h
    have hone : ∀ {sym e tu}, UnitWord w sym e → unitBySymbol tbl sym = some tu →
        ((DimVal.mul tu.dimension e).bind fun x => DimVal.add d0 x) = none → ∃ ws' us, ws' <+: w :: ws ∧ TableWords tbl ws' us ∧
      us.foldlM (fun d ue => (DimVal.mul ue.1.dimension ue.2).bind fun x => DimVal.add d x) d0 = none := by
      intro sym e tu h1 h2 h3
      have hsym := (unitBySymbol_some h2).2
      subst hsym
      refine ⟨[w], [(tu, e)], ⟨ws, rfl⟩, .cons ⟨h1, h2⟩ .nil, ?_⟩
      rw [List.foldlM_cons, h3]; rfl
    cases hr : readSingleUnit M tbl w with
    | error => rw [hr] at h; cases h
    | panic =>
      unfold readSingleUnit at hr
      cases hc : cutUnitWord w with
      | none => rw [hc] at hr; cases hr
      | some ue =>
        obtain ⟨sym, e⟩ := ue
        rw [hc] at hr
        simp only [Outcome.orError, Outcome.bind] at hr
        cases hs : unitBySymbol tbl sym with
        | none => rw [hs] at hr; cases hr
        | some tu =>
          rw [hs] at hr
          cases hm : DimVal.mul tu.dimension e with
          | some x => simp only [hm, Outcome.orPanic] at hr; cases hr
          | none => exact hone (unitWord_iff.1 hc) hs (by rw [hm]; rfl)
    | ok r =>
      obtain ⟨sym, e, tu, h1, h2, h3, h4⟩ := readSingleUnit_ok.1 hr
      rw [hr] at h
      simp only [Outcome.bind] at h
      cases ha : DimVal.add d0 r.1 with
      | none => exact hone h1 h2 (by rw [h3]; exact ha)
      | some d' =>
        rw [ha] at h
        simp only [Outcome.orPanic] at h
        obtain ⟨ws', us, k1, k2, k3⟩ := ih h
        have hsym := (unitBySymbol_some h2).2
        subst hsym
        refine ⟨w :: ws', (tu, e) :: us, ?_, .cons ⟨h1, h2⟩ k2, ?_⟩
        · obtain ⟨r, rfl⟩ := k1; exact ⟨r, rfl⟩
        · rw [List.foldlM_cons]
          simp only [h3, Option.bind_some, ha, Option.bind_eq_bind]
          exact k3

section
variable {factor : Prefix → M} {t : UnresolvedTemplates E M} {defs : Defs E M} {res : BMap (ResolvedItem E M)}

/-- Reading the words of known units succeeds as long as the exponents stay small. -/
theorem readUnits_succeeds (h : Accepted (UnresolvedTemplates.expand (MagOps.one E) factor t) defs res)
    (hl : (UnresolvedTemplates.expand (MagOps.one E) factor t).LitExponents (WrittenExponent.Ok : E → Prop))
    {us : List (TableUnit E K × Int)} {vs : UnitPowers E M}
    (hv : List.Forall₂ (fun (v : UnitDef E M × Int) u => v.1 ∈ defs.units ∧ v.2 = u.2 ∧ u.1.Of defs.baseDimensions v.1) vs us)
    {L : Nat} (hL : 0 < L) (hL2 : L ^ 2 < 2 ^ 63) (hden : ∀ v ∈ vs, ∀ k ∈ defs.baseDimensions, DenomDvd L (v.1.dims.expo k))
    (hb : ∀ k ∈ defs.baseDimensions, (vs.map fun v => |(v.2 : ℚ) * v.1.dims.expo k|).sum * L ^ 2 < 2 ^ 63) :
    ∃ d, us.foldlM (fun d ue => (DimVal.mul ue.1.dimension ue.2).bind fun x => DimVal.add d x)
      (DimVal.none defs.baseDimensions.length) = some d := by
  refine foldlM_isSome (bd := defs.baseDimensions) (vs := vs) hL hL2 ?_ hden (DimVal.none_canonical _) (none_vec_map _) (fun k _ => DenomDvd.zero L)
    fun k hk => by simpa using hb k hk
  exact hv.imp fun v u hvu => by
    obtain ⟨c, e⟩ := unit_dimension h hl hvu.1 hvu.2.2.2.1
    exact ⟨hvu.2.1, c, e⟩

/-- Reading arbitrary words does not panic if all units have small exponents. -/
theorem readUnits_no_panic (h : Accepted (UnresolvedTemplates.expand (MagOps.one E) factor t) defs res)
    (hl : (UnresolvedTemplates.expand (MagOps.one E) factor t).LitExponents (WrittenExponent.Ok : E → Prop)) {tbl : List (TableUnit E K)}
    (ht : unitTable M defs.baseDimensions defs.units = some tbl) {B L : Nat} (hL : 0 < L) (hL2 : L ^ 2 < 2 ^ 63)
    (hB : ∀ U ∈ defs.units, ∀ k, |U.dims.expo k| ≤ B) (hden : ∀ U ∈ defs.units, ∀ k, DenomDvd L (U.dims.expo k))
    {ws : List Str} (hs : ws.length * B * L ^ 2 < 2 ^ 32) :
    readUnits M tbl (DimVal.none defs.baseDimensions.length) (Prims.one M .f64) ws ≠ .panic := by
  intro hp
  obtain ⟨ws', us, h1, h2, h3⟩ := readUnits_panic hp
  obtain ⟨vs, g1, g2⟩ := tableWords_names h ht h2
  have hmem : ∀ v ∈ vs, v.1 ∈ defs.units ∧ |(v.2 : ℚ)| ≤ 2 ^ 31 := by
    intro v hv
    obtain ⟨w, _, k1, sym, k2, k3⟩ := forall₂_mem_right g1 hv
    refine ⟨k1, ?_⟩
    have : InI32 v.2 := by
      rcases k3 with ⟨_, _, h⟩ | ⟨_, _, _, _, h⟩
      · rw [h]; decide
      · exact h
    have : |v.2| ≤ 2 ^ 31 := abs_le.2 ⟨this.1, by have := this.2; omega⟩
    exact_mod_cast this
  obtain ⟨d, hd⟩ := readUnits_succeeds h hl g2 hL hL2 (fun v hv k _ => hden _ (hmem v hv).1 k) fun k _ => by
    have h5 : (vs.map fun v => |(v.2 : ℚ) * v.1.dims.expo k|).sum ≤ vs.length * (2 ^ 31 * B) := by
      have : ∀ l : UnitPowers E M, (∀ v ∈ l, v ∈ vs) → (l.map fun v => |(v.2 : ℚ) * v.1.dims.expo k|).sum ≤ l.length * (2 ^ 31 * (B : ℚ)) := by
        intro l
        induction l with
        | nil => simp
        | cons v l ih =>
          intro hl
          rw [List.map_cons, List.sum_cons, List.length_cons]
          push_cast
          rw [add_mul, add_comm, one_mul]
          refine add_le_add (ih fun v hv => hl v (by simp [hv])) ?_
          rw [abs_mul]
          exact mul_le_mul (hmem v (hl v (by simp))).2 (hB _ (hmem v (hl v (by simp))).1 k) (abs_nonneg _) (by positivity)
      exact this vs fun v hv => hv
    have h6 : vs.length ≤ ws.length := by
      have := g1.length_eq
      have := h1.length_le
      omega
    have h7 : vs.length * B * L ^ 2 < 2 ^ 32 := lt_of_le_of_lt (by gcongr) hs
    have h8 : (vs.length : ℚ) * B * L ^ 2 < 2 ^ 32 := by exact_mod_cast h7
    calc _ ≤ (vs.length : ℚ) * (2 ^ 31 * B) * L ^ 2 := by gcongr
      _ = (vs.length : ℚ) * B * L ^ 2 * 2 ^ 31 := by ring
      _ < 2 ^ 32 * 2 ^ 31 := by gcongr
      _ = 2 ^ 63 := by norm_num
  rw [h3] at hd; cases hd

end
end
end Diman
