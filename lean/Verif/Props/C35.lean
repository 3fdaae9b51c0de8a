import Verif.Spec.Descr
import Mathlib.Tactic
/-!
# C35 — Random quantities lie between the given bounds
Bounds and results are compared with the generated `PartialOrd` of quantities (`quantityCmp`).
-/
namespace Diman
variable {K U G M : Type} [Prims K M]

/-- `Quantity: PartialOrd<Quantity>`, the entry of the operator table, on floats. -/
def quantityCmp (t : FloatTy) (a b : Val K M) : Option (Val K M) := (⟨.partialOrd, qG, qG⟩ : OperatorTrait).run t.storage t.storage a b

example : (⟨.partialOrd, qG, qG⟩ : OperatorTrait) ∈ iterNumericTraits [.f64] := by decide

theorem quantityCmp_eq (t : FloatTy) (x y : K) :
    quantityCmp t (.quantity [x] : Val K M) (.quantity [y]) = some (.ordering (partialCmp M t x y)) := by
  cases t <;> rfl

/-- **C35, half-open ranges.** If the float sampler keeps its promise, `gen_range(low..high)` gives a quantity at least `low` and below `high`. -/
theorem C35_half_open (R : UniformFloat K U G) (sound : R.Sound M) (t : FloatTy) (low high v : Val K M) (g g' : G)
    (run : genRange R t low high g = some (v, g')) :
    (quantityCmp t low v = some (.ordering (some .lt)) ∨ quantityCmp t low v = some (.ordering (some .eq))) ∧
      quantityCmp t v high = some (.ordering (some .lt)) := by
  unfold genRange UniformQuantity.new at run
  simp only [Option.pure_def, Option.bind_eq_bind] at run
  obtain ⟨u, hu, hr⟩ := Option.bind_eq_some_iff.1 run
  obtain ⟨l, hl, hu⟩ := Option.bind_eq_some_iff.1 hu
  obtain ⟨h, hh, hu⟩ := Option.bind_eq_some_iff.1 hu
  obtain ⟨w, hw, hu⟩ := Option.bind_eq_some_iff.1 hu
  have el : low = .quantity [l] := by
    unfold floatField at hl; split at hl <;> simp_all
  have eh : high = .quantity [h] := by
    unfold floatField at hh; split at hh <;> simp_all
  cases hu
  simp only [UniformQuantity.sample, Option.some.injEq, Prod.mk.injEq] at hr
  obtain ⟨rfl, rfl⟩ := hr
  have := sound.half_open t l h w hw g
  subst el eh
  simp only [quantityCmp_eq]
  rcases this with ⟨h1 | h1, h2⟩ <;> simp [h1, h2]

/-- **C35, inclusive ranges.** -/
theorem C35_inclusive (R : UniformFloat K U G) (sound : R.Sound M) (t : FloatTy) (low high v : Val K M) (g g' : G)
    (run : genRangeInclusive R t low high g = some (v, g')) :
    (quantityCmp t low v = some (.ordering (some .lt)) ∨ quantityCmp t low v = some (.ordering (some .eq))) ∧
      (quantityCmp t v high = some (.ordering (some .lt)) ∨ quantityCmp t v high = some (.ordering (some .eq))) := by
  unfold genRangeInclusive UniformQuantity.newInclusive at run
  simp only [Option.pure_def, Option.bind_eq_bind] at run
  obtain ⟨u, hu, hr⟩ := Option.bind_eq_some_iff.1 run
  obtain ⟨l, hl, hu⟩ := Option.bind_eq_some_iff.1 hu
  obtain ⟨h, hh, hu⟩ := Option.bind_eq_some_iff.1 hu
  obtain ⟨w, hw, hu⟩ := Option.bind_eq_some_iff.1 hu
  have el : low = .quantity [l] := by
    unfold floatField at hl; split at hl <;> simp_all
  have eh : high = .quantity [h] := by
    unfold floatField at hh; split at hh <;> simp_all
  cases hu
  simp only [UniformQuantity.sample, Option.some.injEq, Prod.mk.injEq] at hr
  obtain ⟨rfl, rfl⟩ := hr
  have := sound.inclusive t l h w hw g
  subst el eh
  simp only [quantityCmp_eq]
  rcases this with ⟨h1 | h1, h2 | h2⟩ <;> simp [h1, h2]

/-- **C35, the stored value is the float sampler's.** The quantity drawn holds exactly the float that the float sampler draws between the
stored bounds from the same generator, the generator advances alike, and the call panics only if the float sampler does. -/
theorem C35_same_stream (R : UniformFloat K U G) (t : FloatTy) (low high : K) (g : G) :
    (genRange R t (.quantity [low] : Val K M) (.quantity [high]) g =
      (R.new t low high).map fun u => (.quantity [(R.sample t u g).1], (R.sample t u g).2)) ∧
    (genRangeInclusive R t (.quantity [low] : Val K M) (.quantity [high]) g =
      (R.newInclusive t low high).map fun u => (.quantity [(R.sample t u g).1], (R.sample t u g).2)) := by
  constructor
  · simp only [genRange, UniformQuantity.new, floatField, UniformQuantity.sample]
    cases h : R.new t low high <;> simp [h]
  · simp only [genRangeInclusive, UniformQuantity.newInclusive, floatField, UniformQuantity.sample]
    cases h : R.newInclusive t low high <;> simp [h]

/-- **C35, repeated sampling.** Every sample of a prepared half-open distribution lies in the range, however many are drawn. -/
theorem C35_sample_many (R : UniformFloat K U G) (sound : R.Sound M) (t : FloatTy) (low high : K) (u : UniformQuantity U)
    (prepared : UniformQuantity.new R t (.quantity [low] : Val K M) (.quantity [high]) = some u) (n : Nat) (g : G) :
    (u.sampleMany R t n g : List (Val K M)).length = n ∧ ∀ v ∈ (u.sampleMany R t n g : List (Val K M)),
      (quantityCmp t (.quantity [low]) v = some (.ordering (some .lt)) ∨ quantityCmp t (.quantity [low]) v = some (.ordering (some .eq))) ∧
      quantityCmp t v (.quantity [high]) = some (.ordering (some .lt)) := by
  induction n generalizing g with
  | zero => simp [UniformQuantity.sampleMany]
  | succ n ih =>
    refine ⟨by simp [UniformQuantity.sampleMany, (ih _).1], fun v hv => ?_⟩
    rcases List.mem_cons.1 hv with rfl | hv
    · refine C35_half_open R sound t (.quantity [low]) (.quantity [high]) _ g (u.sample (M := M) R t g).2 ?_
      unfold genRange
      rw [prepared]; rfl
    · exact (ih _).2 v hv

/-- **C35, the stream of samples.** The samples drawn one after another are the floats that the float sampler draws from the same generator,
each draw continuing with the generator as the draw before it left it. -/
theorem C35_sample_stream (R : UniformFloat K U G) (t : FloatTy) (u : UniformQuantity U) (n : Nat) (g : G) :
    (u.sampleMany R t n g : List (Val K M)) =
      (List.range n).map fun i => .quantity [(R.sample t u.inner ((fun g => (R.sample t u.inner g).2)^[i] g)).1] := by
  induction n generalizing g with
  | zero => rfl
  | succ n ih =>
    rw [List.range_succ_eq_map, List.map_cons, List.map_map]
    simp only [UniformQuantity.sampleMany, ih]
    rfl

/-- The promise can be kept: a sampler that always returns the lower end, on three values 0 < 1 < 2. -/
example : letI : Prims (Fin 3) Unit :=
      ⟨fun _ => 0, fun _ => 1, fun _ a _ => a, fun _ a _ => a, fun _ a _ => a, fun _ a _ => a, fun _ a => a, fun _ a => a, fun _ a _ => a,
        fun _ a _ => a, fun _ a _ _ => some a, fun _ a _ => a, fun _ a => a, fun _ a => a, fun _ _ a => a, fun _ a b => a == b,
        fun _ a b => decide (a < b), fun _ _ => false, fun _ _ => 0, fun a _ => a, fun a _ => a⟩
    ∃ R : UniformFloat (Fin 3) (Fin 3) Unit, R.Sound Unit ∧ R.new .f64 0 2 = some 0 := by
  letI : Prims (Fin 3) Unit :=
      ⟨fun _ => 0, fun _ => 1, fun _ a _ => a, fun _ a _ => a, fun _ a _ => a, fun _ a _ => a, fun _ a => a, fun _ a => a, fun _ a _ => a,
        fun _ a _ => a, fun _ a _ _ => some a, fun _ a _ => a, fun _ a => a, fun _ a => a, fun _ _ a => a, fun _ a b => a == b,
        fun _ a b => decide (a < b), fun _ _ => false, fun _ _ => 0, fun a _ => a, fun a _ => a⟩
  refine ⟨⟨fun _ l h => if l < h then some l else none, fun _ l h => if l ≤ h then some l else none, fun _ u g => (u, g)⟩, ⟨?_, ?_⟩, rfl⟩
  · intro t l h u hu g
    simp only [Option.ite_none_right_eq_some, Option.some.injEq] at hu
    obtain ⟨h1, rfl⟩ := hu
    refine ⟨.inr (by simp [partialCmp, Prims.eq]), ?_⟩
    have : l ≠ h := ne_of_lt h1
    simp [partialCmp, Prims.eq, Prims.lt, h1, this]
  · intro t l h u hu g
    simp only [Option.ite_none_right_eq_some, Option.some.injEq] at hu
    obtain ⟨h1, rfl⟩ := hu
    refine ⟨.inr (by simp [partialCmp, Prims.eq]), ?_⟩
    rcases h1.lt_or_eq with h2 | rfl
    · have : l ≠ h := ne_of_lt h2
      exact .inl (by simp [partialCmp, Prims.eq, Prims.lt, h2, this])
    · exact .inr (by simp [partialCmp, Prims.eq])

end Diman
