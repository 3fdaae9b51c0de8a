import Verif.Spec.Features
import Verif.Props.C20
/-!
# C55 — Cargo features
What the features switch on, and that switching on more of them takes nothing away.
-/
set_option linter.unusedSectionVars false
set_option linter.unusedSimpArgs false
set_option linter.unusedVariables false
namespace Diman
variable {E : Type} [FieldOps E] [DecidableEq E]

/-- The features that are on are the requested ones and those the table leads to from them, through any number of links. -/
theorem C55_resolution (requested : List Feature) (f : Feature) : enabled requested f = true ↔ TurnedOn requested f := by
  have closed : ∀ r : Feature, ∀ g, (r = g ∨ ∃ h ∈ r.implies, h = g ∨ g ∈ h.implies) → ∀ k ∈ g.implies,
      (r = k ∨ ∃ h ∈ r.implies, h = k ∨ k ∈ h.implies) := by
    intro r g hg k hk
    rcases hg with rfl | ⟨h, hr, rfl | hg⟩
    · exact .inr ⟨k, hk, .inl rfl⟩
    · exact .inr ⟨h, hr, .inr hk⟩
    · exfalso; revert hk hg hr; cases r <;> cases h <;> simp [Feature.implies]
  have key : ∀ r, (r = f ∨ ∃ h ∈ r.implies, h = f ∨ f ∈ h.implies) ↔ Relation.ReflTransGen (fun a b => b ∈ a.implies) r f := by
    intro r
    constructor
    · rintro (rfl | ⟨h, hr, rfl | hf⟩)
      · exact .refl
      · exact .single hr
      · exact (Relation.ReflTransGen.single hr).tail hf
    · intro h
      induction h with
      | refl => exact .inl rfl
      | tail _ hstep ih => exact closed r _ ih _ hstep
  unfold enabled TurnedOn
  rw [List.any_eq_true]
  refine exists_congr fun r => and_congr_right fun hr => ?_
  rw [← key]
  simp

/-- Requesting more switches nothing off. -/
theorem C55_monotone {requested requested' : List Feature} (h : requested ⊆ requested') {f : Feature}
    (hf : enabled requested f = true) : enabled requested' f = true := by
  rw [C55_resolution] at hf ⊢
  obtain ⟨r, hr, h'⟩ := hf
  exact ⟨r, h hr, h'⟩

/-- A storage type is supported exactly if its feature is on, and listed once; whoever asks for a vector type gets its component type. -/
theorem C55_storage_features (on : Feature → Bool) (requested : List Feature) :
    (∀ s : Storage, s ∈ storageTypes on ↔ on s.feature = true) ∧ (storageTypes on).Nodup ∧
    ∀ s : Storage, enabled requested s.feature = true → enabled requested s.base.storage.feature = true := by
  refine ⟨?_, ?_, ?_⟩
  · intro s
    unfold storageTypes floatTypes vectorTypes
    cases s <;> simp [Storage.feature]
  · unfold storageTypes floatTypes vectorTypes
    split_ifs <;> decide
  · intro s hs
    cases s <;> simp [Storage.feature, Storage.base, FloatTy.storage] at hs ⊢
    · exact hs
    · exact hs
    all_goals
      rw [C55_resolution] at hs ⊢
      obtain ⟨r, hr, h⟩ := hs
      exact ⟨r, hr, h.tail (by simp [Feature.implies])⟩

theorem mem_storageTypes {on : Feature → Bool} {s : Storage} : s ∈ storageTypes on ↔ on s.feature = true :=
  (C55_storage_features on []).1 s

theorem mem_floatTypes {on : Feature → Bool} {s : Storage} : s ∈ floatTypes on ↔ s.isFloat = true ∧ on s.feature = true := by
  unfold floatTypes; cases s <;> simp [Storage.feature, Storage.isFloat]

theorem mem_vectorTypes {on : Feature → Bool} {s : Storage} : s ∈ vectorTypes on ↔ s.isVector = true ∧ on s.feature = true := by
  unfold vectorTypes; cases s <;> simp [Storage.feature, Storage.isVector, Storage.isFloat]

omit [FieldOps E] [DecidableEq E] in
theorem Fn.generated_mono {on on' : Feature → Bool} (h : ∀ f, on f = true → on' f = true) (f : Fn E) (args : List (Ty E))
    (hg : f.generated on args = true) : f.generated on' args = true := by
  have hm : hasMath on = true → hasMath on' = true := by
    unfold hasMath; simp only [Bool.or_eq_true]; exact Or.imp (h _) (h _)
  revert hg
  unfold Fn.generated
  split <;> (try exact id) <;>
    simp only [Bool.and_eq_true, Bool.or_eq_true, List.contains_iff_mem, mem_storageTypes, mem_floatTypes, mem_vectorTypes] <;>
    grind

/-- Switching on more features takes nothing away: every call of a generated function that type-checked keeps its type, and every
operator its outcome, which stays the only one. -/
theorem C55_additive [Exponent E] [LawfulExponent E] [LawfulFieldOps E] {on on' : Feature → Bool}
    (h : ∀ f, on f = true → on' f = true) (n : Nat) :
    (∀ (f : Fn E) args t, f.sigIn on n args = some t → f.sigIn on' n args = some t) ∧
    ∀ (t : Trait) (l r : OpTy E) out, OpTyped (storageTypes on) n t l r out →
      OpTyped (storageTypes on') n t l r out ∧ ∀ out', OpTyped (storageTypes on') n t l r out' → out' = out := by
  refine ⟨?_, ?_⟩
  · intro f args t ht
    unfold Fn.sigIn at ht ⊢
    split at ht
    · rename_i hg
      rw [if_pos (Fn.generated_mono h f args hg)]
      exact ht
    · exact absurd ht (by simp)
  · intro t l r out ho
    have key : OpTyped (storageTypes on') n t l r out := by
      obtain ⟨o, hm, hn, hi⟩ := ho
      refine ⟨o, ?_, hn, hi⟩
      rcases table_cases hm with hm | ⟨ty, hty, hm⟩
      · exact mem_generic hm
      · exact mem_concrete (mem_storageTypes.2 (h _ (mem_storageTypes.1 hty))) hm
    exact ⟨key, fun out' h' => C20_outcome_unique _ n t l r out' out h' key⟩

/-- Which functions there are: if the storage types involved are switched on, a call that type-checks in a build with everything
switched on type-checks, with the same type, unless it is a root or one of the dimensionless functions and neither `std` nor
`num-traits-libm` is on; and it does not type-check then. -/
theorem C55_documented (on : Feature → Bool) (n : Nat) (f : Fn E) (args : List (Ty E)) (t : Ty E) (hsig : f.sig n args = some t)
    (hargs : ∀ a ∈ args, a.On on) (hnamed : f.NamedOn on) :
    f.sigIn on n args = if f.needsMath = true ∧ on .std = false ∧ on .numTraitsLibm = false then none else some t := by
  have hv : ∀ s : Storage, s.isVector = !s.isFloat := fun _ => rfl
  unfold Fn.sigIn
  rw [hsig]
  have key : f.generated on args = true ↔ (f.needsMath = true → hasMath on = true) := by
    cases f <;> simp only [Fn.sig] at hsig <;> (try split at hsig) <;> (try (simp at hsig; done)) <;>
      simp_all [Fn.generated, Fn.needsMath, Fn.NamedOn, Ty.On, axisOk, mem_storageTypes, mem_floatTypes,
        mem_vectorTypes]
  have hm : hasMath on = true ↔ ¬ (on .std = false ∧ on .numTraitsLibm = false) := by
    unfold hasMath; cases on .std <;> cases on .numTraitsLibm <;> simp
  by_cases hg : f.generated on args = true
  · rw [if_pos hg, if_neg]
    rintro ⟨h1, h2⟩
    exact hm.1 (key.1 hg h1) h2
  · rw [if_neg hg, if_pos]
    rw [key, Classical.not_imp, hm, not_not] at hg
    exact hg

/-- Nothing leads out of the storage types that are switched on: calls and operators on values of such types give values of such types. -/
theorem C55_closed [Exponent E] [LawfulExponent E] [LawfulFieldOps E] (requested : List Feature) (n : Nat) :
    (∀ (f : Fn E) args t, f.sigIn (enabled requested) n args = some t → (∀ a ∈ args, a.On (enabled requested)) →
      f.NamedOn (enabled requested) → t.On (enabled requested)) ∧
    ∀ (t : Trait) (l r : OpTy E) out, OpTyped (storageTypes (enabled requested)) n t l r out → l.ty.On (enabled requested) →
      r.ty.On (enabled requested) → out.On (enabled requested) := by
  have hbase := (C55_storage_features (enabled requested) requested).2.2
  refine ⟨?_, ?_⟩
  · intro f args t ht hargs hnamed
    unfold Fn.sigIn at ht
    split at ht
    swap
    · exact absurd ht (by simp)
    rename_i hg
    clear hg
    cases f <;> simp only [Fn.sig] at ht <;> (repeat' split at ht) <;> (try (simp at ht; done)) <;>
      (try simp only [Option.map_eq_some_iff] at ht) <;>
      (obtain ⟨_, _, rfl⟩ := ht) <;>
      simp_all [Fn.NamedOn, Ty.On, List.mem_cons]
  · intro t l r out h hl hr
    rw [C20_exactly] at h
    have so : ∀ sl sr s, storageOut t sl sr = some s → s = sl ∨ s = sr := by
      intro sl sr s; cases t <;> cases sl <;> cases sr <;> simp [storageOut] <;> grind
    obtain ⟨lr, lt⟩ := l
    obtain ⟨rr, rt⟩ := r
    cases lt <;> cases rt <;> (try exact absurd h id) <;> obtain ⟨s, hs, h⟩ := h <;> simp only [Ty.On] at hl hr <;>
      have hso : enabled requested s.feature = true := (by rcases so _ _ _ hs with rfl | rfl <;> assumption) <;>
      clear so hs <;> cases t <;> simp only at h <;> aesop (add norm simp [OpOut.On, Ty.On])

/-- The one combination of features that the crate refuses. -/
theorem C55_refused (on : Feature → Bool) :
    refused on = true ↔ on .rationalDimensions = true ∧ on .std = false ∧ on .numTraitsLibm = false := by
  unfold refused hasMath; cases on .std <;> cases on .numTraitsLibm <;> simp

/-- What the generated code needs from the standard library, beyond mathematical functions: nothing unless `serde` is on, or `hdf5`
together with a vector type. The crate does not refuse these features without `std`, so with them `no_std` builds fail to compile (F23). -/
theorem C55_no_std (on : Feature → Bool) :
    stdNames on = [] ↔ on .serde = false ∧
      (on .hdf5 = false ∨ ∀ s : Storage, s.isVector = true → on s.feature = false) := by
  have hv : vectorTypes on = [] ↔ ∀ s : Storage, s.isVector = true → on s.feature = false := by
    rw [List.eq_nil_iff_forall_not_mem]
    refine forall_congr' fun s => ?_
    rw [mem_vectorTypes]; simp
  rw [← hv]
  unfold stdNames
  cases on .serde <;> cases on .hdf5 <;> cases h : vectorTypes on <;> simp [h]

/-! ### Examples -/

/-- The default build: `f32`, `f64`; roots are there, vectors are not. -/
example : storageTypes (enabled [.default]) = [.f32, .f64] ∧
    (Fn.sqrt : Fn Int).sigIn (enabled [.default]) 2 [.quantity .f64 [2, 0]] = some (.quantity .f64 [1, 0]) ∧
    (Fn.length : Fn Int).sigIn (enabled [.default]) 2 [.quantity .dvec2 [2, 0]] = none ∧
    stdNames (enabled [.default]) = [] ∧ refused (enabled [.default]) = false := by decide +kernel

/-- Adding `glam-dvec2` adds `DVec2`. -/
example : storageTypes (enabled [.default, .glamDvec2]) = [.f32, .f64, .dvec2] ∧
    (Fn.length : Fn Int).sigIn (enabled [.default, .glamDvec2]) 2 [.quantity .dvec2 [2, 0]] = some (.quantity .f64 [2, 0]) := by
  decide +kernel

/-- `default-features = false, features = ["glam-vec3"]`: `f32` comes with it, roots are gone. -/
example : storageTypes (enabled [.glamVec3]) = [.f32, .vec3] ∧
    (Fn.sqrt : Fn Int).sigIn (enabled [.glamVec3]) 2 [.quantity .f32 [2, 0]] = none ∧
    (Fn.squared : Fn Int).sigIn (enabled [.glamVec3]) 2 [.quantity .f32 [2, 0]] = some (.quantity .f32 [4, 0]) := by
  decide +kernel

/-- `no_std` with `serde`: not refused, although the generated code needs `std`. -/
example : stdNames (enabled [.f64, .serde]) ≠ [] ∧ refused (enabled [.f64, .serde]) = false ∧ enabled [.f64, .serde] .std = false := by
  decide +kernel

end Diman
