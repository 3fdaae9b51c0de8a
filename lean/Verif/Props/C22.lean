import Verif.Proofs.Api
import Verif.Proofs.Exponent
import Verif.Spec.Ideal
import Verif.Model.SoftFloat
import Verif.Props.C44
/-!
# C22 — creating a quantity in a unit and reading it back in that unit returns the number
A unit is a `Unit<D, F>` or a `RuntimeUnit<D>` with conversion factor `m`.
-/
set_option linter.unusedSectionVars false
set_option linter.unusedSimpArgs false
set_option linter.style.haveILetI false
namespace Diman

/-- The two kinds of unit types, and unit values with conversion factor `m`. -/
inductive UnitKind where
  | const | runtime

def UnitKind.ty {E : Type} (k : UnitKind) (d : DimVal E) : Ty E :=
  match k with
  | .const => .unit d
  | .runtime => .runtimeUnit d

def UnitKind.val {K M : Type} (k : UnitKind) (m : M) : Val K M :=
  match k with
  | .const => .unit m
  | .runtime => .runtimeUnit m

section
variable {E : Type} [FieldOps E] [DecidableEq E] {K M : Type} [Prims K M]

/-- The three ways to create a quantity in a unit have the same type: the storage type of the number and the dimension of the unit. -/
theorem C22_types (n : Nat) (k : UnitKind) (s : Storage) (d : DimVal E) :
    (Fn.unitMul).sig n [.bare s, k.ty d] = some (.quantity s d) ∧ (Fn.unitMul).sig n [k.ty d, .bare s] = some (.quantity s d) ∧
    (s.isFloat = true → (Fn.unitNew).sig n [k.ty d, .bare s] = some (.quantity s d)) ∧
    (s.isFloat = true → (Fn.valueIn).sig n [.quantity s d, k.ty d] = some (.bare s)) := by
  cases k <;> refine ⟨rfl, rfl, fun h => ?_, fun h => ?_⟩ <;> simp [Fn.sig, UnitKind.ty, h]

/-- On any number type: `x * unit` and `unit.new(x)` are the same quantity, the components times the factor; and `unit * x` is too when
multiplication of numbers commutes. -/
theorem C22_same (n : Nat) (k : UnitKind) (s : Storage) (d : DimVal E) (m : M) (r : Raw K) :
    (Fn.unitMul).run n [.bare s, k.ty d] [.bare r, k.val m] =
      some (.quantity (r.map fun x => Prims.mul M s.base x (Prims.into s.base m)) : Val K M) ∧
    (s.isFloat = true → (Fn.unitNew).run n [k.ty d, .bare s] [k.val m, .bare r] =
      (Fn.unitMul).run n [.bare s, k.ty d] [(.bare r : Val K M), k.val m]) ∧
    ((∀ x y : K, Prims.mul M s.base x y = Prims.mul M s.base y x) →
      (Fn.unitMul).run n [k.ty d, .bare s] [k.val m, .bare r] = (Fn.unitMul).run n [.bare s, k.ty d] [(.bare r : Val K M), k.val m]) := by
  cases k <;> refine ⟨rfl, fun h => ?_, fun h => ?_⟩
  · simp [Fn.run, Fn.sig, UnitKind.ty, UnitKind.val, h, Fn.body, storageOf]
  · simp only [Fn.run, Fn.sig, UnitKind.ty, UnitKind.val, Fn.body, storageOf, Option.isNone_some, Option.getD_some]
    simp only [Bool.false_eq_true, if_false]
    congr 2; exact List.map_congr_left fun x _ => h _ _
  · simp [Fn.run, Fn.sig, UnitKind.ty, UnitKind.val, h, Fn.body, storageOf]
  · simp only [Fn.run, Fn.sig, UnitKind.ty, UnitKind.val, Fn.body, storageOf, Option.isNone_some, Option.getD_some]
    simp only [Bool.false_eq_true, if_false]
    congr 2; exact List.map_congr_left fun x _ => h _ _

theorem valueIn_run (n : Nat) (k : UnitKind) {s : Storage} (hs : s.isFloat = true) (d d' : DimVal E) (m : M) (r : Raw K) :
    (Fn.valueIn).run n [.quantity s d, k.ty d'] [.quantity r, k.val m] =
      some (.bare (r.map fun x => Prims.div M s.base x (Prims.into s.base m)) : Val K M) := by
  cases k <;> simp [Fn.run, Fn.sig, UnitKind.ty, UnitKind.val, hs, Fn.body, storageOf]
end

theorem Fmt.mul_comm (f : Fmt) (x y : Fl) (hf : 0 < f.infBits) : f.mul x y = f.mul y x := by
  cases x with
  | nan => cases y <;> rfl
  | num s n =>
    cases y with
    | nan => rfl
    | num t m =>
      have hc : (s != t) = (t != s) := by cases s <;> cases t <;> rfl
      simp only [Fmt.mul, hc, _root_.mul_comm (f.mag n)]
      by_cases h1 : f.isInf n = true <;> by_cases h2 : f.isInf m = true <;> simp only [h1, h2, if_true]
      · have hn0 : n ≠ 0 := by rintro rfl; simp [Fmt.isInf] at h1; omega
        have hm0 : m ≠ 0 := by rintro rfl; simp [Fmt.isInf] at h2; omega
        simp [hn0, hm0]
      · simp
      · simp
      · simp

theorem FloatTy.fmt_inf (t : FloatTy) : 0 < t.fmt.infBits := by cases t <;> decide
theorem FloatTy.fmt_p (t : FloatTy) : 1 ≤ t.fmt.p := by cases t <;> decide

section
variable {E : Type} [FieldOps E] [DecidableEq E]

/-- On real `f32`/`f64` numbers and vectors, all three ways give the same quantity, bit for bit. -/
theorem C22_same_float (P : PlatformFns) (n : Nat) (k : UnitKind) (s : Storage) (d : DimVal E) (m : Magnitude) (r : Raw Fl) :
    letI := softPrims P
    (s.isFloat = true → (Fn.unitNew).run n [k.ty d, .bare s] [k.val m, .bare r] =
      (Fn.unitMul).run n [.bare s, k.ty d] [(.bare r : Val Fl Magnitude), k.val m]) ∧
    (Fn.unitMul).run n [k.ty d, .bare s] [k.val m, .bare r] = (Fn.unitMul).run n [.bare s, k.ty d] [(.bare r : Val Fl Magnitude), k.val m] := by
  letI := softPrims P
  exact ⟨(C22_same n k s d m r).2.1, (C22_same n k s d m r).2.2 fun x y => Fmt.mul_comm _ x y (FloatTy.fmt_inf _)⟩

/-- In exact arithmetic, reading a quantity created in a unit (in any of the three ways) back in that unit returns the number, for every
unit with a non-zero factor. -/
theorem C22_round_trip_exact [IdealFns] (n : Nat) (k k' : UnitKind) {s : Storage} (hs : s.isFloat = true) (d : DimVal E) {m : ℝ} (hm : m ≠ 0)
    (x : ℝ) {v : Val ℝ ℝ}
    (h : (Fn.unitMul).run n [.bare s, k.ty d] [.bare [x], k.val m] = some v ∨ (Fn.unitMul).run n [k.ty d, .bare s] [k.val m, .bare [x]] = some v ∨
      (Fn.unitNew).run n [k.ty d, .bare s] [k.val m, .bare [x]] = some v) :
    (Fn.valueIn).run n [.quantity s d, k'.ty d] [v, k'.val m] = some (.bare [x]) := by
  have h0 : v = .quantity [x * m] := by
    obtain ⟨e1, e2, e3⟩ := C22_same (K := ℝ) (M := ℝ) n k s d m [x]
    have e3 := e3 fun x y => _root_.mul_comm x y
    have e2 := e2 hs
    rw [e1] at e2 e3
    rw [e1, e2, e3] at h
    have : some (Val.quantity [x * m]) = some v := by rcases h with h | h | h <;> exact h
    injection this with this; exact this.symm
  subst h0
  rw [valueIn_run n k' hs]
  show some (Val.bare [x * m / m]) = _
  rw [mul_div_cancel_right₀ _ hm]

/-- In `f32`/`f64`: what is read back is the correctly rounded quotient of the correctly rounded product (two rounded operations). If the
product is in the normal range and finite, and so is the quotient, its relative error is at most `2u + u²`, where `u = 2^-53` for `f64` and
`2^-24` for `f32`. `φ` is the value of the unit's factor as a float, `a` the value of the number. -/
theorem C22_round_trip_float (P : PlatformFns) (n : Nat) (k k' : UnitKind) {s : Storage} (hs : s.isFloat = true) (d : DimVal E) (m : Magnitude)
    (x : Fl) {a φ : ℚ} (ha : s.base.fmt.val x = some a)
    (hφ : s.base.fmt.val ((softPrims P).into s.base m) = some φ) (hφ0 : φ ≠ 0) :
    letI := softPrims P
    ∃ y z, (Fn.unitMul).run n [.bare s, k.ty d] [(.bare [x] : Val Fl Magnitude), k.val m] = some (.quantity [y]) ∧
      (Fn.valueIn).run n [.quantity s d, k'.ty d] [(.quantity [y] : Val Fl Magnitude), k'.val m] = some (.bare [z]) ∧
      ∀ b r, s.base.fmt.val y = some b → s.base.fmt.val z = some r →
        pow2 (s.base.fmt.emin + ((s.base.fmt.p : Int) - 1)) ≤ |a * φ| → pow2 (s.base.fmt.emin + ((s.base.fmt.p : Int) - 1)) ≤ |b / φ| →
        |r - a| ≤ (2 * pow2 (-(s.base.fmt.p : Int)) + pow2 (-(s.base.fmt.p : Int)) ^ 2) * |a| := by
  letI := softPrims P
  refine ⟨s.base.fmt.mul x ((softPrims P).into s.base m), s.base.fmt.div (s.base.fmt.mul x ((softPrims P).into s.base m)) ((softPrims P).into s.base m),
    (C22_same n k s d m [x]).1, valueIn_run n k' hs d d m _, fun b r hb hr h1 h2 => ?_⟩
  have e1 := (C44_relative_error _ s.base.fmt_p x _ a φ ha hφ).1 b hb h1
  have e2 := (C44_relative_error _ s.base.fmt_p _ _ b φ hb hφ).2 hφ0 r hr h2
  set u := pow2 (-(s.base.fmt.p : Int)) with hu
  have hu0 : 0 ≤ u := (pow2_pos _).le
  have hφp : 0 < |φ| := abs_pos.2 hφ0
  -- |b/φ - a| ≤ u |a|
  have e3 : |b / φ - a| ≤ u * |a| := by
    have : b / φ - a = (b - a * φ) / φ := by field_simp
    rw [this, abs_div, div_le_iff₀ hφp, mul_assoc, ← abs_mul]; exact e1
  have e4 : |b / φ| ≤ (1 + u) * |a| := by
    have : |b / φ| ≤ |b / φ - a| + |a| := by simpa using abs_add_le (b / φ - a) a
    linarith
  have : |r - a| ≤ |r - b / φ| + |b / φ - a| := by simpa using abs_add_le (r - b / φ) (b / φ - a)
  have e5 : u * |b / φ| ≤ u * ((1 + u) * |a|) := mul_le_mul_of_nonneg_left e4 hu0
  nlinarith

/-- In `f32`/`f64`: whenever the product of the number and the factor is exact (for example, when the factor is a power of two), the very
same number comes back, including the sign of zero. -/
theorem C22_round_trip_float_exact (P : PlatformFns) (n : Nat) (k k' : UnitKind) {s : Storage} (hs : s.isFloat = true) (d : DimVal E)
    (m : Magnitude) (x : Fl) {a φ : ℚ} (ha : s.base.fmt.val x = some a)
    (hφ : s.base.fmt.val ((softPrims P).into s.base m) = some φ) (hφ0 : φ ≠ 0) {y : Fl}
    (hy : letI := softPrims P; (Fn.unitMul).run n [.bare s, k.ty d] [(.bare [x] : Val Fl Magnitude), k.val m] = some (.quantity [y]))
    (hex : s.base.fmt.val y = some (a * φ)) :
    letI := softPrims P
    (Fn.valueIn).run n [.quantity s d, k'.ty d] [(.quantity [y] : Val Fl Magnitude), k'.val m] = some (.bare [x]) := by
  letI := softPrims P
  rw [valueIn_run n k' hs d d m]
  have hy' := (C22_same n k s d m [x]).1.symm.trans hy
  injection hy' with hy'; injection hy' with hy'
  simp only [List.map_cons, List.map_nil, List.cons.injEq, and_true] at hy'
  show some (Val.bare [s.base.fmt.div y ((softPrims P).into s.base m)]) = _
  change s.base.fmt.mul x ((softPrims P).into s.base m) = y at hy'
  generalize hF : (softPrims P).into s.base m = F at *
  have hp : 1 ≤ s.base.fmt.p := s.base.fmt_p
  generalize s.base.fmt = f at *
  cases x with
  | nan => cases ha
  | num sx nx =>
    cases F with
    | nan => cases hφ
    | num sF nF =>
      simp only [Fmt.val] at ha hφ
      split at ha <;> [cases ha; skip]
      rename_i hx1
      split at hφ <;> [cases hφ; skip]
      rename_i hF1
      rw [not_le] at hx1 hF1
      rw [mul_num f hx1 hF1] at hy'
      subst hy'
      simp only [Fmt.val] at hex
      split at hex <;> [cases hex; skip]
      rename_i hy1
      rw [not_le] at hy1
      injection ha with ha; injection hφ with hφ; injection hex with hex
      have hF0 : nF ≠ 0 := by
        rintro rfl; apply hφ0; rw [← hφ, mag_zero]; simp
      rw [div_num f hy1 hF1 hF0]
      have hmF : 0 < f.mag nF := mag_pos f (Nat.pos_of_ne_zero hF0)
      have hprod : f.mag (f.round (f.mag nx * f.mag nF)) = f.mag nx * f.mag nF := by
        rw [← ha, ← hφ] at hex
        cases sx <;> cases sF <;> simp at hex <;> linarith
      rw [hprod, mul_div_cancel_right₀ _ hmF.ne', round_mag f hp hx1.le]
      have : ((sx != sF) != sF) = sx := by cases sx <;> cases sF <;> rfl
      rw [this]
end

/-- Non-vacuity: 2.5 kilometres in `f64` and read back, with compiler-rt's `powi`; the product is exact here. -/
example : letI := softPrims ⟨rtLib fun _ _ => .nan, fun _ _ _ => .nan, fun _ _ => .nan, fun _ _ => .nan, fun _ _ _ => .nan⟩
    let km := Magnitude.fromF64 (f64Fmt.ofInt 1000)
    let x : Fl := f64Fmt.div (f64Fmt.ofInt 5) (f64Fmt.ofInt 2)
    f64Fmt.val x = some (5 / 2) ∧ f64Fmt.val ((softPrims ⟨rtLib fun _ _ => .nan, fun _ _ _ => .nan, fun _ _ => .nan, fun _ _ => .nan, fun _ _ _ => .nan⟩).into .f64 km) = some 1000 ∧
    (Fn.unitMul).run 1 [.bare .f64, .unit ([1] : DimVal Int)] [.bare [x], .unit km] = some (.quantity [f64Fmt.ofInt 2500]) ∧
    (Fn.valueIn).run 1 [.quantity .f64 ([1] : DimVal Int), .unit [1]] [.quantity [f64Fmt.ofInt 2500], .unit km] = some (.bare [x]) := by
  decide +kernel

end Diman
