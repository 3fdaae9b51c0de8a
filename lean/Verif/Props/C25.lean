import Verif.Props.C17
import Verif.Props.C31
/-!
# C25 — powers and roots are consistent
Types for both exponent types; values for every number type (the float's own `powi`, `sqrt`, `cbrt`) and, for the algebraic laws, in
exact arithmetic (`Spec/Ideal.lean`).
-/
set_option linter.unusedSectionVars false
set_option linter.unusedSimpArgs false
namespace Diman
open LawfulExponent

/-- A generated function that raises floats to a power, with its exponent. -/
inductive IsPower {E : Type} : Fn E → Int → Prop where
  | squared : IsPower .squared 2
  | cubed : IsPower .cubed 3
  | powi (i : Int) : IsPower (.powi i) i

/-- A generated root function of floats, with its degree. -/
inductive IsRoot {E : Type} : Fn E → Nat → Prop where
  | sqrt : IsRoot .sqrt 2
  | cbrt : IsRoot .cbrt 3

section
variable {E : Type} [FieldOps E] [DecidableEq E]

/-- The signature of a power. -/
theorem power_sig {f : Fn E} {k : Int} (hf : IsPower f k) (n : Nat) (tys : List (Ty E)) (t : Ty E) :
    f.sig n tys = some t ↔ InI32 k ∧ ∃ s d p, s.isFloat = true ∧ tys = [.quantity s d] ∧ DimVal.mul d k = some p ∧ t = .quantity s p := by
  have h2 : InI32 2 := by decide
  have h3 : InI32 3 := by decide
  constructor
  · intro h
    cases hf <;> simp only [Fn.sig] at h <;> split at h <;> first | cases h; done | skip
    all_goals
      split at h <;> [skip; cases h]
      rename_i hc
      rw [Option.map_eq_some_iff] at h
      obtain ⟨p, hp, rfl⟩ := h
      try simp only [Bool.and_eq_true, decide_eq_true_eq] at hc
    · exact ⟨h2, _, _, p, hc, rfl, hp, rfl⟩
    · exact ⟨h3, _, _, p, hc, rfl, hp, rfl⟩
    · exact ⟨hc.2, _, _, p, hc.1, rfl, hp, rfl⟩
  · rintro ⟨hk, s, d, p, hs, rfl, hp, rfl⟩
    cases hf <;> simp [Fn.sig, hs, hp, hk]

/-- The signature of a root. -/
theorem root_sig (n : Nat) (tys : List (Ty E)) (t : Ty E) :
    ((Fn.sqrt).sig n tys = some t ↔ ∃ s d p, s.isFloat = true ∧ tys = [.quantity s d] ∧ DimVal.div2 d = some p ∧ t = .quantity s p) ∧
    ((Fn.cbrt).sig n tys = some t ↔ ∃ s d p, s.isFloat = true ∧ tys = [.quantity s d] ∧ DimVal.div3 d = some p ∧ t = .quantity s p) := by
  constructor <;> constructor
  all_goals first
    | (rintro ⟨s, d, p, hs, rfl, hp, rfl⟩; simp [Fn.sig, hs, hp])
    | intro h
      simp only [Fn.sig] at h
      split at h <;> [skip; cases h]
      split at h <;> [skip; cases h]
      rw [Option.map_eq_some_iff] at h
      obtain ⟨p, hp, rfl⟩ := h
      exact ⟨_, _, p, by assumption, rfl, hp, rfl⟩

variable {K M : Type} [Prims K M]

/-- The values of powers and roots, on every number type: the float's own power and root of the stored number. -/
theorem C25_values {n : Nat} {s : Storage} {d : DimVal E} {t : Ty E} (x : K) :
    (∀ {f k}, IsPower f k → f.sig n [.quantity s d] = some t →
      f.run n [.quantity s d] [(.quantity [x] : Val K M)] = some (.quantity [Prims.powi M s.base x k])) ∧
    ((Fn.sqrt).sig n [.quantity s d] = some t →
      (Fn.sqrt).run n [.quantity s d] [(.quantity [x] : Val K M)] = some (.quantity [Prims.sqrt M s.base x])) ∧
    ((Fn.cbrt).sig n [.quantity s d] = some t →
      (Fn.cbrt).run n [.quantity s d] [(.quantity [x] : Val K M)] = some (.quantity [Prims.cbrt M s.base x])) := by
  refine ⟨fun {f k} hf h => ?_, fun h => ?_, fun h => ?_⟩
  · cases hf <;> simp [Fn.run, h, Fn.body, storageOf]
  · simp [Fn.run, h, Fn.body, storageOf]
  · simp [Fn.run, h, Fn.body, storageOf]
end

section
variable {E : Type} [Exponent E] [LawfulExponent E] [FieldOps E] [LawfulFieldOps E] [DecidableEq E]

/-- `squared`, `cubed` and `powi::<N>` of a float quantity of dimension `D` have dimension `D²`, `D³`, `Dᴺ`: every exponent is multiplied.
Roots divide every exponent. -/
theorem C25_types {n : Nat} {s : Storage} {d : DimVal E} (hd : d.Canonical) {t : Ty E} :
    (∀ {f k}, IsPower f k → f.sig n [.quantity s d] = some t → ∃ p, t = .quantity s p ∧ p.Canonical ∧ p.vec = d.vec.map (· * (k : ℚ))) ∧
    ((Fn.sqrt).sig n [.quantity s d] = some t → ∃ p, t = .quantity s p ∧ p.Canonical ∧ p.vec = d.vec.map (· / 2)) ∧
    ((Fn.cbrt).sig n [.quantity s d] = some t → ∃ p, t = .quantity s p ∧ p.Canonical ∧ p.vec = d.vec.map (· / 3)) := by
  refine ⟨fun {f k} hf h => ?_, fun h => ?_, fun h => ?_⟩
  · obtain ⟨_, s', d', p, _, he, hp, rfl⟩ := (power_sig hf _ _ _).1 h
    injection he with he; injection he with e1 e2; subst e1 e2
    exact ⟨p, rfl, DimVal.mul_spec hd hp⟩
  · obtain ⟨s', d', p, _, he, hp, rfl⟩ := (root_sig _ _ _).1.1 h
    injection he with he; injection he with e1 e2; subst e1 e2
    exact ⟨p, rfl, DimVal.div2_spec hd hp⟩
  · obtain ⟨s', d', p, _, he, hp, rfl⟩ := (root_sig _ _ _).2.1 h
    injection he with he; injection he with e1 e2; subst e1 e2
    exact ⟨p, rfl, DimVal.div3_spec hd hp⟩

/-- The root of a power has the original type again, whenever both type-check; and the power of a root. -/
theorem C25_root_type {n : Nat} {s : Storage} {d : DimVal E} (hd : d.Canonical) {t u : Ty E} :
    ((Fn.squared).sig n [.quantity s d] = some t → (Fn.sqrt).sig n [t] = some u → u = .quantity s d) ∧
    ((Fn.cubed).sig n [.quantity s d] = some t → (Fn.cbrt).sig n [t] = some u → u = .quantity s d) ∧
    ((Fn.sqrt).sig n [.quantity s d] = some t → (Fn.squared).sig n [t] = some u → u = .quantity s d) ∧
    ((Fn.cbrt).sig n [.quantity s d] = some t → (Fn.cubed).sig n [t] = some u → u = .quantity s d) := by
  refine ⟨fun h h' => ?_, fun h h' => ?_, fun h h' => ?_, fun h h' => ?_⟩
  · obtain ⟨_, s', d', p, _, he, hp, rfl⟩ := (power_sig .squared _ _ _).1 h
    injection he with he; injection he with e1 e2; subst e1 e2
    obtain ⟨s', d', q, _, he, hq, rfl⟩ := (root_sig _ _ _).1.1 h'
    injection he with he; injection he with e1 e2; subst e1 e2
    rw [(C17_roots_undo hd).1 hp hq]
  · obtain ⟨_, s', d', p, _, he, hp, rfl⟩ := (power_sig .cubed _ _ _).1 h
    injection he with he; injection he with e1 e2; subst e1 e2
    obtain ⟨s', d', q, _, he, hq, rfl⟩ := (root_sig _ _ _).2.1 h'
    injection he with he; injection he with e1 e2; subst e1 e2
    rw [(C17_roots_undo hd).2.2.1 hp hq]
  · obtain ⟨s', d', p, _, he, hp, rfl⟩ := (root_sig _ _ _).1.1 h
    injection he with he; injection he with e1 e2; subst e1 e2
    obtain ⟨_, s', d', q, _, he, hq, rfl⟩ := (power_sig .squared _ _ _).1 h'
    injection he with he; injection he with e1 e2; subst e1 e2
    rw [(C17_roots_undo hd).2.1 hp hq]
  · obtain ⟨s', d', p, _, he, hp, rfl⟩ := (root_sig _ _ _).2.1 h
    injection he with he; injection he with e1 e2; subst e1 e2
    obtain ⟨_, s', d', q, _, he, hq, rfl⟩ := (power_sig .cubed _ _ _).1 h'
    injection he with he; injection he with e1 e2; subst e1 e2
    rw [(C17_roots_undo hd).2.2.2 hp hq]

/-- `q.squared()` has the type of `q * q`, and `q.powi::<N>()` (N > 0) that of the `N`-fold product, whenever both type-check. -/
theorem C25_power_is_product {n : Nat} {s : Storage} {d p : DimVal E} (hd : d.Canonical) {k : Nat} {f : Fn E} {t : Ty E}
    (hf : IsPower f k) (h : f.sig n [.quantity s d] = some t) (hp : d.nfold k = some p) : t = .quantity s p := by
  obtain ⟨_, s', d', q, _, he, hq, rfl⟩ := (power_sig hf _ _ _).1 h
  injection he with he; injection he with e1 e2; subst e1 e2
  rw [(C17_power hd hp).1 hq]

end

/-- Integer dimensions: the square (cube) root of a float quantity type-checks exactly when every exponent is divisible by two (three);
otherwise it is rejected at compile time. -/
theorem C25_root_accepted_iff (n : Nat) {s : Storage} (hs : s.isFloat = true) (d : DimVal Int) :
    (((Fn.sqrt).sig n [.quantity s d]).isSome ↔ ∀ e ∈ d, 2 ∣ e) ∧ (((Fn.cbrt).sig n [.quantity s d]).isSome ↔ ∀ e ∈ d, 3 ∣ e) := by
  simp only [Fn.sig, hs, if_true, Option.isSome_map]
  exact C17_root_accepted_iff d

/-- Integer dimensions: the root of a power is never rejected, and gives back the type. -/
theorem C25_root_of_power_accepted (n : Nat) {s : Storage} {d : DimVal Int} {t : Ty Int} :
    ((Fn.squared).sig n [.quantity s d] = some t → (Fn.sqrt).sig n [t] = some (.quantity s d)) ∧
    ((Fn.cubed).sig n [.quantity s d] = some t → (Fn.cbrt).sig n [t] = some (.quantity s d)) := by
  have key : ∀ (k : Int) (g : Int → Option Int), (∀ e, g (e * k) = some e) → ∀ {d p : DimVal Int}, DimVal.mul d k = some p →
      DimVal.map1 g p = some d := by
    intro k g hg d
    induction d with
    | nil => intro p h; cases h; rfl
    | cons e d ih =>
      intro p h
      simp only [DimVal.mul, DimVal.map1, FieldOps.mul, bindM_eq_some, pure_eq_some] at h
      obtain ⟨a, ha, b, hb, rfl⟩ := h
      have : a = e * k := by
        unfold i64 at ha; split at ha <;> simp_all
      subst this
      simp [DimVal.map1, hg, ih hb]
  constructor
  · intro h
    obtain ⟨_, s', d', p, hs, he, hp, rfl⟩ := (power_sig .squared _ _ _).1 h
    injection he with he; injection he with e1 e2; subst e1 e2
    have := key 2 FieldOps.div2 (fun e => by simp [FieldOps.div2, Int.mul_tmod_left, Int.mul_tdiv_cancel]) hp
    simp [Fn.sig, hs, DimVal.div2, this]
  · intro h
    obtain ⟨_, s', d', p, hs, he, hp, rfl⟩ := (power_sig .cubed _ _ _).1 h
    injection he with he; injection he with e1 e2; subst e1 e2
    have := key 3 FieldOps.div3 (fun e => by simp [FieldOps.div3, Int.mul_tmod_left, Int.mul_tdiv_cancel]) hp
    simp [Fn.sig, hs, DimVal.div3, this]

/-- The cube root is the inverse of the cube on all reals. -/
theorem realCbrt_cube (x : ℝ) : realCbrt (x ^ (3 : Int)) = x := by
  have h3 : (x ^ (3 : Int)) = x ^ 3 := by norm_cast
  rw [h3]
  unfold realCbrt
  rcases le_or_gt 0 x with h | h
  · rw [if_pos (by positivity)]
    have : ((3 : ℝ))⁻¹ = ((3 : ℕ) : ℝ)⁻¹ := by norm_num
    rw [this, Real.pow_rpow_inv_natCast h (by norm_num)]
  · have hn : ¬ (0 ≤ x ^ 3) := by
      have : x ^ 3 < 0 := by have := Odd.pow_neg (n := 3) (by decide) h; exact this
      linarith
    rw [if_neg hn]
    have : -(x ^ 3) = (-x) ^ 3 := by ring
    rw [this]
    have h3 : ((3 : ℝ))⁻¹ = ((3 : ℕ) : ℝ)⁻¹ := by norm_num
    rw [h3, Real.pow_rpow_inv_natCast (by linarith) (by norm_num)]
    ring

theorem realCbrt_pow (x : ℝ) : (realCbrt x) ^ (3 : Int) = x := by
  have h3 : ∀ y : ℝ, (y ^ (3 : Int)) = y ^ 3 := fun y => by norm_cast
  rw [h3]
  unfold realCbrt
  have e : ((3 : ℝ))⁻¹ = ((3 : ℕ) : ℝ)⁻¹ := by norm_num
  rcases le_or_gt 0 x with h | h
  · rw [if_pos h, e, Real.rpow_inv_natCast_pow h (by norm_num)]
  · rw [if_neg (by linarith), Odd.neg_pow (by decide), e, Real.rpow_inv_natCast_pow (by linarith) (by norm_num)]
    ring

section
variable {E : Type} [FieldOps E] [DecidableEq E] [IdealFns]

/-- In exact arithmetic, `q.squared().sqrt()` is `|q|`, `q.cubed().cbrt()` is `q`, `q.cbrt().cubed()` is `q`, and `q.sqrt().squared()` is
`q` for `q ≥ 0` (values; for the types see `C25_root_type`). -/
theorem C25_root_value_exact {n : Nat} {s : Storage} {d p : DimVal E} (x : ℝ) :
    (DimVal.mul d 2 = some p → ∀ {t u}, (Fn.squared).sig n [.quantity s d] = some t → (Fn.sqrt).sig n [.quantity s p] = some u →
      ((Fn.squared).run n [.quantity s d] [(.quantity [x] : Val ℝ ℝ)] >>= fun v => (Fn.sqrt).run n [.quantity s p] [v]) =
        some (.quantity [|x|])) ∧
    (DimVal.mul d 3 = some p → ∀ {t u}, (Fn.cubed).sig n [.quantity s d] = some t → (Fn.cbrt).sig n [.quantity s p] = some u →
      ((Fn.cubed).run n [.quantity s d] [(.quantity [x] : Val ℝ ℝ)] >>= fun v => (Fn.cbrt).run n [.quantity s p] [v]) =
        some (.quantity [x])) ∧
    (0 ≤ x → DimVal.div2 d = some p → ∀ {t u}, (Fn.sqrt).sig n [.quantity s d] = some t → (Fn.squared).sig n [.quantity s p] = some u →
      ((Fn.sqrt).run n [.quantity s d] [(.quantity [x] : Val ℝ ℝ)] >>= fun v => (Fn.squared).run n [.quantity s p] [v]) =
        some (.quantity [x])) ∧
    (DimVal.div3 d = some p → ∀ {t u}, (Fn.cbrt).sig n [.quantity s d] = some t → (Fn.cubed).sig n [.quantity s p] = some u →
      ((Fn.cbrt).run n [.quantity s d] [(.quantity [x] : Val ℝ ℝ)] >>= fun v => (Fn.cubed).run n [.quantity s p] [v]) =
        some (.quantity [x])) := by
  refine ⟨fun _ t u h h' => ?_, fun _ t u h h' => ?_, fun hx _ t u h h' => ?_, fun _ t u h h' => ?_⟩
  · rw [(C25_values x).1 .squared h, Option.bind_eq_bind, Option.bind_some, (C25_values _).2.1 h']
    show some (Val.quantity [√(x ^ (2 : Int))]) = _
    rw [show (x ^ (2 : Int)) = x ^ 2 by norm_cast, Real.sqrt_sq_eq_abs]
  · rw [(C25_values x).1 .cubed h, Option.bind_eq_bind, Option.bind_some, (C25_values _).2.2 h']
    exact congrArg (fun y => some (Val.quantity [y])) (realCbrt_cube x)
  · rw [(C25_values x).2.1 h, Option.bind_eq_bind, Option.bind_some, (C25_values _).1 .squared h']
    show some (Val.quantity [(√x) ^ (2 : Int)]) = _
    rw [show ((√x) ^ (2 : Int)) = (√x) ^ 2 by norm_cast, Real.sq_sqrt hx]
  · rw [(C25_values x).2.2 h, Option.bind_eq_bind, Option.bind_some, (C25_values _).1 .cubed h']
    exact congrArg (fun y => some (Val.quantity [y])) (realCbrt_pow x)

/-- In exact arithmetic a positive power is the repeated product, power zero is one, and a negative power is the reciprocal. -/
theorem C25_power_value_exact {n : Nat} {s : Storage} {d : DimVal E} {f : Fn E} {k : Int} (hf : IsPower f k) {t : Ty E}
    (h : f.sig n [.quantity s d] = some t) (x : ℝ) :
    ∃ y, f.run n [.quantity s d] [(.quantity [x] : Val ℝ ℝ)] = some (.quantity [y]) ∧
      (∀ m : Nat, k = m → y = (List.replicate m x).prod) ∧ (∀ m : Nat, k = -m → y = ((List.replicate m x).prod)⁻¹) := by
  refine ⟨x ^ k, (C25_values x).1 hf h, ?_, ?_⟩
  · rintro m rfl; rw [List.prod_replicate, zpow_natCast]
  · rintro m rfl; rw [List.prod_replicate, zpow_neg, zpow_natCast]
end

/-- Non-vacuity: a length (in a system with two base dimensions); its square has a square root, the length itself has none with integer
exponents but has one with rational exponents. -/
example : (Fn.squared).sig 2 [.quantity .f64 ([1, 0] : DimVal Int)] = some (.quantity .f64 [2, 0]) ∧
    (Fn.sqrt).sig 2 [.quantity .f64 ([2, 0] : DimVal Int)] = some (.quantity .f64 [1, 0]) ∧
    (Fn.sqrt).sig 2 [.quantity .f64 ([1, 0] : DimVal Int)] = none ∧
    (Fn.sqrt).sig 2 [.quantity .f64 ([Ratio.int 1, Ratio.int 0] : DimVal Ratio)] = some (.quantity .f64 [⟨1, 2⟩, Ratio.int 0]) ∧
    (Fn.powi (-3)).sig 2 [.quantity .f32 ([1, 2] : DimVal Int)] = some (.quantity .f32 [-3, -6]) := by decide +kernel

end Diman
