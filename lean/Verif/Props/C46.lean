import Verif.Proofs.SiTable
import Verif.Proofs.NoStd
import Mathlib.Analysis.Real.Pi.Bounds
/-!
# C46: the units of the SI module are the SI units
The input is the text of src/si.rs (as in C36), the comparison is with tables written down from the SI brochure (`Spec/SiTable.lean`).
The kernel runs the check once, on the exact values together with their error books; the statements about exact numbers and about the
code's doubles both follow from it, because the resolver commutes with every map of numbers that respects their arithmetic
(`Proofs/Natural.lean`) and the books are right about the doubles (`Proofs/Estimate.lean`).
-/
namespace Diman

section
variable {E M M' : Type} [Exponent E] [LawfulExponent E] [ReadExponent E] [MagOps E M] [MagOps E M']

theorem SiFaithful.pull (φ : M → M') [MagHom E φ] {mag : Number → M} {factor : Prefix → M} {V : Int → ℚ → M' → Prop}
    (h : SiFaithful E M' (φ ∘ mag) (φ ∘ factor) V) : SiFaithful E M mag factor (fun k q m => V k q (φ m)) := by
  obtain ⟨toks, t, defs', h1, h2, h3, h4, h5, h6, h7⟩ := h
  rw [unitSystem_mapMag φ] at h3
  cases h : unitSystem (E := E) mag factor toks with
  | syntaxError => rw [h] at h3; simp at h3
  | panic => rw [h] at h3; simp at h3
  | done r =>
    obtain ⟨defs, ds⟩ := r
    rw [h] at h3
    simp only [MacroResult.done.injEq, Prod.mk.injEq] at h3
    obtain ⟨rfl, rfl⟩ := h3
    refine ⟨toks, t, defs, h1, h2, h, h4, h5, ?_, h7⟩
    intro u hu
    obtain ⟨r, hr, hn, hx⟩ := h6 u hu
    refine ⟨r, hr, hn, fun pre hpre base hbase => ?_⟩
    obtain ⟨U, hU, a, b, c, d⟩ := hx pre hpre base hbase
    obtain ⟨W, hW, rfl⟩ := List.mem_map.1 hU
    exact ⟨W, hW, a, b, c, d⟩

theorem SiFaithful.push (φ : M → M') [MagHom E φ] {mag : Number → M} {factor : Prefix → M} {V : Int → ℚ → M → Prop} {V' : Int → ℚ → M' → Prop}
    (hV : ∀ k q m, V k q m → V' k q (φ m)) (h : SiFaithful E M mag factor V) : SiFaithful E M' (φ ∘ mag) (φ ∘ factor) V' := by
  obtain ⟨toks, t, defs, h1, h2, h3, h4, h5, h6, h7⟩ := h
  refine ⟨toks, t, defs.mapMag φ, h1, h2, ?_, h4, h5, ?_, h7⟩
  · rw [unitSystem_mapMag φ, h3]
  · intro u hu
    obtain ⟨r, hr, hn, hx⟩ := h6 u hu
    refine ⟨r, hr, hn, fun pre hpre base hbase => ?_⟩
    obtain ⟨U, hU, a, b, c, d⟩ := hx pre hpre base hbase
    exact ⟨_, List.mem_map_of_mem hU, a, b, hV _ _ _ c, d⟩
end

/-- Exact value, in range, at most seventeen roundings. -/
def siEstimateOk (k : Int) (q : ℚ) (m : Estimate) : Bool :=
  decide (m.value = 10 ^ k * q) && m.inRange && decide (m.roundings ≤ 17)

set_option maxRecDepth 1000000 in
theorem siTableCheck_estimate : @siTableCheck Int Estimate _ _ estimateOps Number.estimate Prefix.estimate siEstimateOk = true := by
  decide +kernel

set_option maxRecDepth 1000000 in
theorem siTableCheck_ratio : siTableCheck (E := Ratio) (M := Unit) (fun _ => ()) (fun _ => ()) (fun _ _ _ => true) = true := by
  decide +kernel

theorem si_estimates : @SiFaithful Int Estimate _ _ _ estimateOps Number.estimate Prefix.estimate (fun k q m => siEstimateOk k q m = true) :=
  @si_faithful_of_check Int Estimate _ _ estimateOps _ _ _ _ siTableCheck_estimate

/-- **C46, exactly.** Computed in exact arithmetic, the units that `src/si.rs` declares are those of the SI tables: each unit, under each of
its names and with each of its prefixes, has the dimension and the symbol of the table and the value `10^prefix × table value`; each named
dimension has the exponents of the table; and nothing in the tables is missing. -/
theorem C46_si_exact : @SiFaithful Int ℚ _ _ _ rationalOps Number.exact Prefix.literal (fun k q m => m = 10 ^ k * q) := by
  have h := @SiFaithful.push Int Estimate ℚ _ _ _ estimateOps rationalOps Estimate.value hom_value Number.estimate Prefix.estimate _
    (fun k q m => m = 10 ^ k * q) (fun k q m h => by
      simp only [siEstimateOk, Bool.and_eq_true, decide_eq_true_eq] at h
      exact h.1.1) si_estimates
  have e1 : Estimate.value ∘ Number.estimate = Number.exact := funext fun _ => rfl
  have e2 : Estimate.value ∘ Prefix.estimate = Prefix.literal := funext fun _ => rfl
  rw [e1, e2] at h
  exact h

/-- **C46, in the code's arithmetic.** With the doubles the macro really computes (`f64` multiplication, division and `powi`, and every factor
stored and read back as a `Magnitude`), every such factor is finite and within a relative `17 × 2^-52` of the value of the table; without
feature `std`, where `powi` is num-traits', within `34 × 2^-52`. -/
theorem C46_si_float (std : Bool) (powf : Fl → Fl → Fl) :
    @SiFaithful Int Magnitude _ _ _ (magOpsInt (buildLib std powf)) Number.magnitude Prefix.factor (fun k q m =>
      ∃ x, f64Fmt.val (m.intoF64 (buildLib std powf)) = some x ∧ |x - 10 ^ k * q| ≤ (if std then 17 else 34) / 2 ^ 52 * |10 ^ k * q|) := by
  have hl := buildLib_cost std powf
  generalize hc : (if std then 1 else 2 : Nat) = c at hl
  let mag : Number → Tracked (buildLib std powf) c := fun n => ⟨(n.magnitude, n.estimate), tracks_number hl.toLibStores n⟩
  let factor : Prefix → Tracked (buildLib std powf) c := fun p => ⟨(p.factor, p.estimate), tracks_prefix hl.toLibStores p⟩
  have e1 : (fun t : Tracked (buildLib std powf) c => t.1.2) ∘ mag = Number.estimate := funext fun _ => rfl
  have e2 : (fun t : Tracked (buildLib std powf) c => t.1.2) ∘ factor = Prefix.estimate := funext fun _ => rfl
  have e3 : (fun t : Tracked (buildLib std powf) c => t.1.1) ∘ mag = Number.magnitude := funext fun _ => rfl
  have e4 : (fun t : Tracked (buildLib std powf) c => t.1.1) ∘ factor = Prefix.factor := funext fun _ => rfl
  have h := si_estimates
  rw [← e1, ← e2] at h
  have h1 := @SiFaithful.pull Int (Tracked (buildLib std powf) c) Estimate _ _ _ (trackedOps hl) estimateOps (fun t => t.1.2) (hom_snd hl) mag factor _ h
  rw [← e3, ← e4]
  refine @SiFaithful.push Int (Tracked (buildLib std powf) c) Magnitude _ _ _ (trackedOps hl) (magOpsInt (buildLib std powf)) (fun t => t.1.1)
    (hom_fst hl) mag factor _ _ ?_ h1
  intro k q m h
  simp only [siEstimateOk, Bool.and_eq_true, decide_eq_true_eq] at h
  obtain ⟨⟨hv, hr⟩, hn⟩ := h
  have hc2 : c ≤ 2 := by subst hc; split <;> decide
  have hcn : c * m.1.2.roundings ≤ c * 17 := Nat.mul_le_mul_left _ hn
  obtain ⟨x, hx, hcl, _⟩ := (m.2 hr).2 (le_trans hcn (by omega))
  refine ⟨x, hx, ?_⟩
  have he := (hcl.mono hcn).err (by omega)
  rw [hv, show pow2 (-52) = 1 / 2 ^ 52 by rw [pow2_eq]; norm_num] at he
  refine le_trans he (le_of_eq ?_)
  subst hc
  cases std <;> push_cast <;> norm_num

/-- **C46, feature `rational-dimensions`.** The dimensions, names and symbols are those of the tables in that build too, whatever the numbers. -/
theorem C46_si_rational_names {M : Type} [MagOps Ratio M] (mag : Number → M) (factor : Prefix → M) :
    SiFaithful Ratio M mag factor (fun _ _ _ => True) := by
  have h := si_faithful_of_check siTableCheck_ratio
  have hom : @MagHom Ratio M Unit _ _ (fun _ => ()) := @MagHom.mk _ _ _ _ _ _ rfl (fun _ _ => rfl) (fun _ _ => rfl) (fun _ _ => rfl)
  have h2 := @SiFaithful.pull Ratio M Unit _ _ _ _ _ (fun _ => ()) hom mag factor _ h
  obtain ⟨toks, t, defs, h1, h2, h3, h4, h5, h6, h7⟩ := h2
  refine ⟨toks, t, defs, h1, h2, h3, h4, h5, ?_, h7⟩
  intro u hu
  obtain ⟨r, hr, hn, hx⟩ := h6 u hu
  refine ⟨r, hr, hn, fun pre hpre base hbase => ?_⟩
  obtain ⟨U, hU, a, b, _, d⟩ := hx pre hpre base hbase
  exact ⟨U, hU, a, b, trivial, d⟩

/-- The decimal the module uses for π is right to fifteen places. -/
theorem C46_pi : |(siPi : ℝ) - Real.pi| < 1 / 10 ^ 15 := by
  have h1 := Real.pi_gt_d20
  have h2 := Real.pi_lt_d20
  rw [abs_lt]
  unfold siPi
  push_cast
  constructor <;> norm_num at h1 h2 ⊢ <;> linarith

/-- The tables are not empty: how many rows they have. -/
example : siUnits.length = 47 ∧ siDimensions.length = 77 := by decide
end Diman
