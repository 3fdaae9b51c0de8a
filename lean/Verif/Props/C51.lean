import Verif.Proofs.BookIdeal
import Verif.Props.C22
import Verif.Props.C43
import Verif.Props.C47
/-!
# C51 — calculations with quantities are accurate
A calculation is any expression built from numbers, quantities, units, the operators between them and the generated functions. It is run
three times: on floats, on real numbers without rounding, and on books (`Spec/ErrorBook.lean`), which carry the exact value and the textbook
bound for the error of each step. Whenever the books are in order (nothing overflowed, no denominator or radicand drowned in its error),
the float result is within the bound of the exact one.
-/
set_option linter.style.haveILetI false
namespace Diman
open Classical

section
variable [IdealFns] {E U : Type} [FieldOps E] [DecidableEq E]

/-- **C51.** Every calculation, whatever its length and form, in `f32` or `f64` (`t₀`), with or without `std`. If the books of the calculation
give `b`, then the floats give some `w` and exact arithmetic gives some `x`; the numbers in `b` are those of `x`; and every component of `w`
whose book is in order is finite and within the error of the book. The starting books (`ρb` for the variables, `fb` for the factors of the
units) may be anything that is true of the floats at the start. Nothing is claimed of the results of `cbrt`, `ln`, `sin`, ..., nor of
comparisons. -/
theorem C51_accurate {P : PlatformFns} {std : Bool} (hP : P.Ieee std) (t₀ : FloatTy) (n : Nat) (c : Calc E U)
    (fw : U → Magnitude) (fb : U → Bounded) (hf : ∀ u, Bounded.HoldsFactor P.lib (fw u) (fb u))
    (ρw : List (Val Fl Magnitude)) (ρb : List (Val Bounded Bounded)) (ρx : List (Val ℝ ℝ))
    (hw : List.Forall₂ (Val.Rel (Bounded.Holds t₀) (Bounded.HoldsFactor P.lib)) ρw ρb)
    (hx : List.Forall₂ (Val.Rel (fun r b => r = b.value) (fun r b => r = b.value)) ρx ρb)
    {b : Val Bounded Bounded} (h : letI := bookPrims std t₀; c.eval n fb ρb = some b) :
    ∃ w x, (letI := softPrims P; c.eval n fw ρw = some w) ∧ c.eval n (fun u => (fb u).value) ρx = some x ∧
      Val.Rel (Bounded.Holds t₀) (Bounded.HoldsFactor P.lib) w b ∧ Val.Rel (fun r b => r = b.value) (fun r b => r = b.value) x b := by
  letI := bookPrims std t₀
  letI := softPrims P
  obtain ⟨w, hw', rw'⟩ := eval_rel (P := softPrims P) (P' := bookPrims std t₀) (softPrims_book hP t₀) n hf c hw h
  obtain ⟨x, hx', rx'⟩ := eval_rel (P := idealPrims) (P' := bookPrims std t₀) (idealPrims_book std t₀) n (fac := fun u => (fb u).value) (fun _ => rfl) c hx h
  exact ⟨w, x, hw', hx', rw', rx'⟩

/-- The books about a conversion factor that the macro computed (C47). -/
noncomputable def Estimate.bounded (std : Bool) (e : Estimate) : Bounded :=
  ⟨e.value, (if std then 1 else 2) * e.roundings / 2 ^ 52 * |(e.value : ℝ)|, e.inRange = true ∧ e.roundings ≤ 2 ^ 29⟩

/-- The same for calculations over the units of any accepted unit system: the factors are the ones the macro computes, the exact factors
those the definitions denote, and the books start with the number of roundings that the definition of each unit takes. -/
theorem C51_accurate_system {P : PlatformFns} {std : Bool} (hP : P.Ieee std) (t₀ : FloatTy) (tokens : List Tok) (defs : Defs Int Magnitude)
    (errors : List Diag)
    (hdefs : @unitSystem Int Magnitude _ Number.magnitude _ (magOpsInt P.lib) Prefix.factor tokens = .done (defs, errors)) :
    ∃ (exact : Defs Int ℚ) (books : Defs Int Estimate),
      @unitSystem Int ℚ _ Number.exact _ rationalOps Prefix.literal tokens = .done (exact, errors) ∧
      @unitSystem Int Estimate _ Number.estimate _ estimateOps Prefix.estimate tokens = .done (books, errors) ∧
      ∀ (n : Nat) (c : Calc E U) (unit : U → Nat) (fw : U → Magnitude) (fx : U → ℚ) (fe : U → Estimate),
        (∀ u, (defs.units[unit u]?.map (·.mag)) = some (fw u)) → (∀ u, (exact.units[unit u]?.map (·.mag)) = some (fx u)) →
        (∀ u, (books.units[unit u]?.map (·.mag)) = some (fe u)) →
        ∀ (ρw : List (Val Fl Magnitude)) (ρb : List (Val Bounded Bounded)) (ρx : List (Val ℝ ℝ)),
          List.Forall₂ (Val.Rel (Bounded.Holds t₀) (Bounded.HoldsFactor P.lib)) ρw ρb →
          List.Forall₂ (Val.Rel (fun r b => r = b.value) (fun r b => r = b.value)) ρx ρb →
          ∀ b, (letI := bookPrims std t₀; c.eval n (fun u => (fe u).bounded std) ρb = some b) →
            ∃ w x, (letI := softPrims P; c.eval n fw ρw = some w) ∧ c.eval n (fun u => (fx u : ℝ)) ρx = some x ∧
              Val.Rel (Bounded.Holds t₀) (Bounded.HoldsFactor P.lib) w b ∧ Val.Rel (fun r b => r = b.value) (fun r b => r = b.value) x b := by
  obtain ⟨powf, hlib⟩ := hP.lib
  rw [hlib] at hdefs
  obtain ⟨exact, books, h1, h2, -, h4, -⟩ := C47_factors_accurate std powf tokens defs errors hdefs
  refine ⟨exact, books, h1, h2, ?_⟩
  intro n c unit fw fx fe e1 e2 e3 ρw ρb ρx hw hx b hb
  have hval : ∀ u, ((fe u).value : ℝ) = fx u ∧ Bounded.HoldsFactor P.lib (fw u) ((fe u).bounded std) := by
    intro u
    obtain ⟨X, hX, hX'⟩ := Option.map_eq_some_iff.1 (e1 u)
    obtain ⟨V, W, hV, hW, -, -, -, -, -, hval, hstd, hno⟩ := h4 _ X hX
    have hV' := e2 u
    have hW' := e3 u
    rw [hV] at hV'; rw [hW] at hW'
    simp only [Option.map_some, Option.some.injEq] at hV' hW'
    rw [← hV', ← hW', ← hX', hval]
    refine ⟨rfl, ?_⟩
    rintro ⟨hr, hn⟩
    rw [hlib]
    cases std with
    | true =>
      obtain ⟨y, hy, ey⟩ := hstd hr rfl
      refine ⟨y, hy, ?_⟩
      show |(y : ℝ) - (W.mag.value : ℝ)| ≤ (if true then 1 else 2) * (W.mag.roundings : ℝ) / 2 ^ 52 * |(W.mag.value : ℝ)|
      rw [hval]
      simp only [if_true, one_mul]
      have := (Rat.cast_le (K := ℝ)).2 ey
      push_cast at this
      exact this
    | false =>
      obtain ⟨y, hy, ey⟩ := hno hr hn
      refine ⟨y, hy, ?_⟩
      show |(y : ℝ) - (W.mag.value : ℝ)| ≤ (if false then 1 else 2) * (W.mag.roundings : ℝ) / 2 ^ 52 * |(W.mag.value : ℝ)|
      rw [hval]
      simp only [Bool.false_eq_true, if_false]
      have := (Rat.cast_le (K := ℝ)).2 ey
      push_cast at this
      exact this
  have e4 : (fun u => (fx u : ℝ)) = fun u => ((fe u).bounded std).value := funext fun u => (hval u).1.symm
  rw [e4]
  exact C51_accurate hP t₀ n c fw _ (fun u => (hval u).2) ρw ρb ρx hw hx hb

end

/-! ### Converting from one unit to another -/

/-- The smallest normal number. -/
noncomputable def FloatTy.minNormal : FloatTy → ℝ
  | .f32 => 2 ^ (-126 : ℤ)
  | .f64 => 2 ^ (-1022 : ℤ)

theorem minNormal_eq (t : FloatTy) : t.minNormal = ((pow2 (t.fmt.emin + ((t.fmt.p : Int) - 1)) : ℚ) : ℝ) := by
  cases t <;> rw [pow2_real] <;> rfl

/-- One rounding, well inside the range: a factor `1 + ε` with `|ε| ≤ u`. -/
theorem round_factor (t : FloatTy) {s : Bool} {a : ℚ} (h0 : 0 ≤ a) (h1 : t.minNormal ≤ (a : ℝ)) (h2 : (a : ℝ) < t.large) :
    ∃ v : ℚ, t.fmt.val (.num s (t.fmt.round a)) = some v ∧ ∃ ε : ℝ, |ε| ≤ t.unitRoundoff ∧ (v : ℝ) = (if s then -(a : ℝ) else (a : ℝ)) * (1 + ε) := by
  obtain ⟨hr, -⟩ := round_bound t h0 h2
  rw [minNormal_eq] at h1
  have h1' : pow2 (t.fmt.emin + ((t.fmt.p : Int) - 1)) ≤ a := by exact_mod_cast h1
  have hpos : 0 < a := lt_of_lt_of_le (pow2_pos _) h1'
  have hposR : (0 : ℝ) < a := by exact_mod_cast hpos
  have he := round_rel_err t.fmt (fmt_p t) h1' hr
  refine ⟨_, fmtVal_num _ hr, ((t.fmt.mag (t.fmt.round a) : ℚ) : ℝ) / a - 1, ?_, ?_⟩
  · have he' := (Rat.cast_le (K := ℝ)).2 he
    push_cast at he'
    rw [unitRoundoff_eq, show ((t.fmt.mag (t.fmt.round a) : ℚ) : ℝ) / a - 1 = (((t.fmt.mag (t.fmt.round a) : ℚ) : ℝ) - a) / a by field_simp,
      abs_div, abs_of_pos hposR, div_le_iff₀ hposR]
    exact he'
  · split <;> push_cast <;> field_simp <;> ring

theorem mul_factor (t : FloatTy) {x y : Fl} {a b : ℚ} (hx : t.fmt.val x = some a) (hy : t.fmt.val y = some b) (h1 : t.minNormal ≤ |(a : ℝ) * b|)
    (h2 : |(a : ℝ) * b| < t.large) : ∃ v : ℚ, t.fmt.val (t.fmt.mul x y) = some v ∧ ∃ ε : ℝ, |ε| ≤ t.unitRoundoff ∧ (v : ℝ) = a * b * (1 + ε) := by
  obtain ⟨s, m, rfl, hm, rfl⟩ := fmtVal_inv hx
  obtain ⟨r, n, rfl, hn, rfl⟩ := fmtVal_inv hy
  rw [mul_num _ hm hn]
  have e : (if s != r then -((t.fmt.mag m * t.fmt.mag n : ℚ) : ℝ) else ((t.fmt.mag m * t.fmt.mag n : ℚ) : ℝ))
      = ((if s then -t.fmt.mag m else t.fmt.mag m : ℚ) : ℝ) * ((if r then -t.fmt.mag n else t.fmt.mag n : ℚ) : ℝ) := by
    cases s <;> cases r <;> simp
  have h0 : 0 ≤ t.fmt.mag m * t.fmt.mag n := mul_nonneg (mag_nonneg _ _) (mag_nonneg _ _)
  have ea : |((if s then -t.fmt.mag m else t.fmt.mag m : ℚ) : ℝ) * ((if r then -t.fmt.mag n else t.fmt.mag n : ℚ) : ℝ)| = ((t.fmt.mag m * t.fmt.mag n : ℚ) : ℝ) := by
    rw [← e]
    have : (0 : ℝ) ≤ ((t.fmt.mag m * t.fmt.mag n : ℚ) : ℝ) := by exact_mod_cast h0
    split <;> simp only [abs_neg, abs_of_nonneg this]
  rw [ea] at h1 h2
  rw [← e]
  exact round_factor t h0 h1 h2

theorem div_factor (t : FloatTy) {x y : Fl} {a b : ℚ} (hx : t.fmt.val x = some a) (hy : t.fmt.val y = some b) (hb : b ≠ 0) (h1 : t.minNormal ≤ |(a : ℝ) / b|)
    (h2 : |(a : ℝ) / b| < t.large) : ∃ v : ℚ, t.fmt.val (t.fmt.div x y) = some v ∧ ∃ ε : ℝ, |ε| ≤ t.unitRoundoff ∧ (v : ℝ) = a / b * (1 + ε) := by
  obtain ⟨s, m, rfl, hm, rfl⟩ := fmtVal_inv hx
  obtain ⟨r, n, rfl, hn, rfl⟩ := fmtVal_inv hy
  have hn0 : n ≠ 0 := by
    rintro rfl
    rw [mag_zero] at hb
    simp at hb
  rw [div_num _ hm hn hn0]
  have e : (if s != r then -((t.fmt.mag m / t.fmt.mag n : ℚ) : ℝ) else ((t.fmt.mag m / t.fmt.mag n : ℚ) : ℝ))
      = ((if s then -t.fmt.mag m else t.fmt.mag m : ℚ) : ℝ) / ((if r then -t.fmt.mag n else t.fmt.mag n : ℚ) : ℝ) := by
    cases s <;> cases r <;> simp [neg_div, div_neg]
  have h0 : 0 ≤ t.fmt.mag m / t.fmt.mag n := div_nonneg (mag_nonneg _ _) (mag_nonneg _ _)
  have ea : |((if s then -t.fmt.mag m else t.fmt.mag m : ℚ) : ℝ) / ((if r then -t.fmt.mag n else t.fmt.mag n : ℚ) : ℝ)| = ((t.fmt.mag m / t.fmt.mag n : ℚ) : ℝ) := by
    rw [← e]
    have : (0 : ℝ) ≤ ((t.fmt.mag m / t.fmt.mag n : ℚ) : ℝ) := by exact_mod_cast h0
    split <;> simp only [abs_neg, abs_of_nonneg this]
  rw [ea] at h1 h2
  rw [← e]
  exact round_factor t h0 h1 h2

/-- How two factors' errors and two roundings combine. -/
theorem combine_errors {d₁ d₂ e₁ e₂ α β u : ℝ} (h1 : |d₁| ≤ α) (h2 : |d₂| ≤ β) (h3 : |e₁| ≤ u) (h4 : |e₂| ≤ u) (hα : α < 1) (hβ : β < 1) (hu : u < 1) :
    |(1 + d₁) * (1 + e₁) * (1 + e₂) / (1 + d₂) - 1| ≤ (1 + α) * (1 + u) ^ 2 / (1 - β) - 1 := by
  obtain ⟨a1, a2⟩ := abs_le.1 h1
  obtain ⟨b1, b2⟩ := abs_le.1 h2
  obtain ⟨c1, c2⟩ := abs_le.1 h3
  obtain ⟨f1, f2⟩ := abs_le.1 h4
  have α0 : 0 ≤ α := (abs_nonneg _).trans h1
  have β0 : 0 ≤ β := (abs_nonneg _).trans h2
  have u0 : 0 ≤ u := (abs_nonneg _).trans h3
  have up : (1 + d₁) * (1 + e₁) * (1 + e₂) / (1 + d₂) ≤ (1 + α) * (1 + u) ^ 2 / (1 - β) := by
    refine div_le_div₀ (by positivity) ?_ (by linarith) (by linarith)
    rw [pow_two, ← mul_assoc]
    exact mul_le_mul (mul_le_mul (by linarith) (by linarith) (by linarith) (by linarith)) (by linarith) (by linarith)
      (mul_nonneg (by linarith) (by linarith))
  have low : (1 - α) * (1 - u) ^ 2 / (1 + β) ≤ (1 + d₁) * (1 + e₁) * (1 + e₂) / (1 + d₂) := by
    refine div_le_div₀ (mul_nonneg (mul_nonneg (by linarith) (by linarith)) (by linarith)) ?_ (by linarith) (by linarith)
    rw [pow_two, ← mul_assoc]
    exact mul_le_mul (mul_le_mul (by linarith) (by linarith) (by linarith) (by linarith)) (by linarith) (by linarith)
      (mul_nonneg (by linarith) (by linarith))
  have mid : 2 ≤ (1 + α) * (1 + u) ^ 2 / (1 - β) + (1 - α) * (1 - u) ^ 2 / (1 + β) := by
    rw [div_add_div _ _ (by linarith) (by linarith), le_div_iff₀ (mul_pos (by linarith) (by linarith))]
    nlinarith [mul_nonneg α0 u0, mul_nonneg β0 u0, mul_nonneg β0 α0, mul_nonneg β0 (mul_nonneg u0 u0), mul_nonneg (mul_nonneg β0 α0) (mul_nonneg u0 u0),
      mul_nonneg β0 β0, mul_nonneg u0 u0]
  rw [abs_le]
  constructor <;> linarith

/-- **C51, converting units.** `(x * u).value_in(v)`, in `f32` or `f64`, for any two units of one dimension. If the factors the code uses for
`u` and `v` are within relative errors `α` and `β` of the true values `U` and `V`, the result is within a relative
`(1 + α)(1 + 2^-53)²/(1 - β) - 1` (`2^-24` for `f32`) of the true `x·U/V`, provided `x·U` and `x·U/V` are within the range of the type, away
from its ends. -/
theorem C51_conversion {E : Type} [FieldOps E] [DecidableEq E] (P : PlatformFns) (n : Nat) (k k' : UnitKind) {s : Storage} (hs : s.isFloat = true) (d : DimVal E)
    (mu mv : Magnitude) (x : Fl) {a φ ψ : ℚ} {U V α β : ℝ} (ha : s.base.fmt.val x = some a)
    (hφ : s.base.fmt.val ((softPrims P).into s.base mu) = some φ) (hψ : s.base.fmt.val ((softPrims P).into s.base mv) = some ψ)
    (hU : |(φ : ℝ) - U| ≤ α * |U|) (hV : |(ψ : ℝ) - V| ≤ β * |V|) (hV0 : V ≠ 0) (hα : α ≤ 1 / 4) (hβ : β ≤ 1 / 4)
    (r1 : 4 * s.base.minNormal ≤ |a * U|) (r2 : |a * U| ≤ s.base.large / 4) (r3 : 4 * s.base.minNormal ≤ |a * U / V|)
    (r4 : |a * U / V| ≤ s.base.large / 4) :
    letI := softPrims P
    ∃ (y z : Fl) (r : ℚ), (Fn.unitMul).run n [.bare s, k.ty d] [(.bare [x] : Val Fl Magnitude), k.val mu] = some (.quantity [y]) ∧
      (Fn.valueIn).run n [.quantity s d, k'.ty d] [(.quantity [y] : Val Fl Magnitude), k'.val mv] = some (.bare [z]) ∧
      s.base.fmt.val z = some r ∧
      |(r : ℝ) - a * U / V| ≤ ((1 + α) * (1 + s.base.unitRoundoff) ^ 2 / (1 - β) - 1) * |a * U / V| := by
  letI := softPrims P
  have hmn : 0 < s.base.minNormal := by cases s.base <;> simp only [FloatTy.minNormal] <;> positivity
  have hu : s.base.unitRoundoff ≤ 1 / 4 := by
    cases s.base <;> simp only [FloatTy.unitRoundoff] <;> norm_num
  have hu0 := unitRoundoff_pos s.base
  have hlarge : 0 < s.base.large := by cases s.base <;> simp only [FloatTy.large] <;> positivity
  have hU0 : U ≠ 0 := by
    rintro rfl
    simp at r1; linarith
  have ha0 : (a : ℝ) ≠ 0 := by
    intro h
    rw [h] at r1
    simp at r1; linarith
  obtain ⟨d₁, e1, b1⟩ : ∃ d₁ : ℝ, (φ : ℝ) = U * (1 + d₁) ∧ |d₁| ≤ α :=
    ⟨φ / U - 1, by field_simp; ring, by
      rw [show (φ : ℝ) / U - 1 = (φ - U) / U by field_simp, abs_div, div_le_iff₀ (abs_pos.2 hU0)]; exact hU⟩
  obtain ⟨d₂, e2, b2⟩ : ∃ d₂ : ℝ, (ψ : ℝ) = V * (1 + d₂) ∧ |d₂| ≤ β :=
    ⟨ψ / V - 1, by field_simp; ring, by
      rw [show (ψ : ℝ) / V - 1 = (ψ - V) / V by field_simp, abs_div, div_le_iff₀ (abs_pos.2 hV0)]; exact hV⟩
  have p1 := abs_le.1 b1
  have p2 := abs_le.1 b2
  have hψ0 : ψ ≠ 0 := by
    have : (ψ : ℝ) ≠ 0 := by rw [e2]; exact mul_ne_zero hV0 (by linarith)
    exact_mod_cast this
  have m1 : |(a : ℝ) * φ| = |a * U| * (1 + d₁) := by
    rw [e1, ← mul_assoc, abs_mul (_ * _), abs_of_pos (show 0 < 1 + d₁ by linarith)]
  have pU : 0 < |a * U| := by linarith
  obtain ⟨y, hy, ε₁, q1, ey⟩ := mul_factor s.base ha hφ (by rw [m1]; nlinarith) (by rw [m1]; nlinarith)
  have p3 := abs_le.1 q1
  have m2 : (y : ℝ) / ψ = a * U / V * ((1 + d₁) * (1 + ε₁) / (1 + d₂)) := by
    rw [ey, e1, e2]
    have : (1 + d₂) ≠ 0 := by linarith
    field_simp
  have f0 : 0 < (1 + d₁) * (1 + ε₁) / (1 + d₂) := div_pos (mul_pos (by linarith) (by linarith)) (by linarith)
  have f1 : 1 / 4 ≤ (1 + d₁) * (1 + ε₁) / (1 + d₂) := by
    rw [le_div_iff₀ (by linarith)]; nlinarith
  have f2 : (1 + d₁) * (1 + ε₁) / (1 + d₂) ≤ 5 / 2 := by
    rw [div_le_iff₀ (by linarith)]; nlinarith
  have pV : 0 < |a * U / V| := by linarith
  obtain ⟨r, hr, ε₂, q2, er⟩ := div_factor s.base hy hψ hψ0 (by rw [m2, abs_mul, abs_of_pos f0]; nlinarith) (by rw [m2, abs_mul, abs_of_pos f0]; nlinarith)
  refine ⟨_, _, r, (C22_same n k s d mu [x]).1, valueIn_run n k' hs d d mv _, hr, ?_⟩
  rw [er, m2, show a * U / V * ((1 + d₁) * (1 + ε₁) / (1 + d₂)) * (1 + ε₂) - a * U / V
    = ((1 + d₁) * (1 + ε₁) * (1 + ε₂) / (1 + d₂) - 1) * (a * U / V) by ring, abs_mul]
  exact mul_le_mul_of_nonneg_right (combine_errors b1 b2 q1 q2 (by linarith) (by linarith) (by linarith)) (abs_nonneg _)

/-! ### Converting SI units -/

/-- A relative error of 36 units of `2^-52` in `f64` (71 without `std`), of 5 units of `2^-24` in `f32`. -/
noncomputable def siConversionError (std : Bool) : FloatTy → ℝ
  | .f64 => (if std then 36 else 71) / 2 ^ 52
  | .f32 => 5 / 2 ^ 24

/-- The relative error of a factor: that of the macro (C46), and in `f32` one more rounding. -/
noncomputable def siFactorError (std : Bool) : FloatTy → ℝ
  | .f64 => (if std then 17 else 34) / 2 ^ 52
  | .f32 => 101 / 100 / 2 ^ 24

/-- The factor of a unit as the code uses it, from the factor as the macro computes it (C46). -/
theorem into_si (std : Bool) {P : PlatformFns} (t : FloatTy) {m : Magnitude} {q : ℚ}
    (h : ∃ x, f64Fmt.val (m.intoF64 P.lib) = some x ∧ |x - q| ≤ (if std then 17 else 34) / 2 ^ 52 * |q|)
    (h1 : 2 * t.minNormal ≤ |(q : ℝ)|) (h2 : |(q : ℝ)| ≤ t.large / 2) :
    ∃ φ, t.fmt.val ((softPrims P).into t m) = some φ ∧
      |(φ : ℝ) - q| ≤ siFactorError std t * |(q : ℝ)| := by
  obtain ⟨x, hx, he⟩ := h
  have he' : |(x : ℝ) - q| ≤ (if std then 17 else 34) / 2 ^ 52 * |(q : ℝ)| := by
    have := (Rat.cast_le (K := ℝ)).2 he
    cases std <;> push_cast at this <;> simpa using this
  cases t with
  | f64 => exact ⟨x, hx, he'⟩
  | f32 =>
    have h34 : |(x : ℝ) - q| ≤ 34 / 2 ^ 52 * |(q : ℝ)| := he'.trans (mul_le_mul_of_nonneg_right (by split <;> norm_num) (abs_nonneg _))
    have hq : 0 < |(q : ℝ)| := lt_of_lt_of_le (by simp only [FloatTy.minNormal]; positivity) h1
    have a1 := abs_sub_abs_le_abs_sub (q : ℝ) x
    have a2 := abs_sub_abs_le_abs_sub (x : ℝ) q
    rw [abs_sub_comm] at a1
    have x1 : FloatTy.f32.minNormal ≤ |(x : ℝ)| := by
      have : 34 / 2 ^ 52 * |(q : ℝ)| ≤ 1 / 2 * |(q : ℝ)| := mul_le_mul_of_nonneg_right (by norm_num) hq.le
      linarith
    have x2 : |(x : ℝ)| < FloatTy.f32.large := by
      have : 34 / 2 ^ 52 * |(q : ℝ)| ≤ 1 / 2 * |(q : ℝ)| := mul_le_mul_of_nonneg_right (by norm_num) hq.le
      have : 0 < FloatTy.f32.large := by simp only [FloatTy.large]; positivity
      linarith
    have x1' : pow2 (-126) ≤ |x| := by
      have : ((pow2 (-126) : ℚ) : ℝ) ≤ ((|x| : ℚ) : ℝ) := by rw [pow2_real]; push_cast; exact x1
      exact_mod_cast this
    have x2' := (round_bound .f32 (abs_nonneg x) (by push_cast; exact x2)).1
    obtain ⟨y, hy, ey⟩ := C47_f32_factor P.lib m x hx x1' x2'
    refine ⟨y, hy, ?_⟩
    have ey' : |(y : ℝ) - x| ≤ 1 / 2 ^ 24 * |(x : ℝ)| := by
      have := (Rat.cast_le (K := ℝ)).2 ey
      push_cast at this; exact this
    have a3 := abs_sub_le (y : ℝ) x q
    have a4 : 1 / 2 ^ 24 * |(x : ℝ)| ≤ 1 / 2 ^ 24 * ((1 + 34 / 2 ^ 52) * |(q : ℝ)|) := mul_le_mul_of_nonneg_left (by linarith) (by norm_num)
    have a5 : 1 / 2 ^ 24 * ((1 + 34 / 2 ^ 52) * |(q : ℝ)|) + 34 / 2 ^ 52 * |(q : ℝ)| = (1 / 2 ^ 24 * (1 + 34 / 2 ^ 52) + 34 / 2 ^ 52) * |(q : ℝ)| := by ring
    have a6 : (1 / 2 ^ 24 * (1 + 34 / 2 ^ 52) + 34 / 2 ^ 52) * |(q : ℝ)| ≤ 101 / 100 / 2 ^ 24 * |(q : ℝ)| :=
      mul_le_mul_of_nonneg_right (by norm_num) hq.le
    show |(y : ℝ) - q| ≤ 101 / 100 / 2 ^ 24 * |(q : ℝ)|
    linarith

/-- **C51, converting SI units.** Any two units of the `si` module, under any of their names and with any of their prefixes, and any number
`x` for which neither `x·U` nor `x·U/V` nor the factors come near the ends of the range: `(x * U).value_in(V)` is, with the factors the
macro computes, within `siConversionError` of `x·U/V`, where `U` and `V` are the values in the SI tables. (If the dimensions of `U` and `V`
differ, the code does not compile: C21.) -/
theorem C51_si_conversion (std : Bool) (powf : Fl → Fl → Fl) (P : PlatformFns) (hP : P.lib = buildLib std powf) :
    ∃ tokens statements defs,
      lex siLines = some tokens ∧ parseSystem (ReadExponent.rational Int) tokens = some statements ∧
      @unitSystem Int Magnitude _ Number.magnitude _ (magOpsInt P.lib) Prefix.factor tokens = .done (defs, []) ∧
      ∀ u ∈ statements.units, ∀ v ∈ statements.units, ∃ r ∈ siUnits, ∃ r' ∈ siUnits, u.name = r.name ∧ v.name = r'.name ∧
        ∀ pre ∈ none :: u.prefixes.map some, ∀ base ∈ u.name :: u.aliases, ∀ pre' ∈ none :: v.prefixes.map some, ∀ base' ∈ v.name :: v.aliases,
          ∃ U ∈ defs.units, ∃ V ∈ defs.units, U.name = (siPrefix? pre).name ++ base ∧ V.name = (siPrefix? pre').name ++ base' ∧
            (∀ k, U.dims.expo k = r.dim.of k) ∧ (∀ k, V.dims.expo k = r'.dim.of k) ∧
            ∀ (n : Nat) (k k' : UnitKind) (s : Storage) (d : DimVal Int) (x : Fl) (a : ℚ) (uval vval : ℝ),
              s.isFloat = true → s.base.fmt.val x = some a →
              uval = 10 ^ (siPrefix? pre).power * r.value → vval = 10 ^ (siPrefix? pre').power * r'.value →
              (∀ q ∈ [uval, vval, a * uval, a * uval / vval], 4 * s.base.minNormal ≤ |q| ∧ |q| ≤ s.base.large / 4) →
              letI := softPrims P
              ∃ (y z : Fl) (q : ℚ), (Fn.unitMul).run n [.bare s, k.ty d] [(.bare [x] : Val Fl Magnitude), k.val U.mag] = some (.quantity [y]) ∧
                (Fn.valueIn).run n [.quantity s d, k'.ty d] [(.quantity [y] : Val Fl Magnitude), k'.val V.mag] = some (.bare [z]) ∧
                s.base.fmt.val z = some q ∧ |(q : ℝ) - a * uval / vval| ≤ siConversionError std s.base * |a * uval / vval| := by
  obtain ⟨tokens, statements, defs, h1, h2, h3, -, -, h6, -⟩ := C46_si_float std powf
  rw [← hP] at h3
  refine ⟨tokens, statements, defs, h1, h2, h3, ?_⟩
  intro u hu v hv
  obtain ⟨r, hr, hn, hx⟩ := h6 u hu
  obtain ⟨r', hr', hn', hx'⟩ := h6 v hv
  refine ⟨r, hr, r', hr', hn, hn', ?_⟩
  intro pre hpre base hbase pre' hpre' base' hbase'
  obtain ⟨U, hU, b1, b2, b3, -⟩ := hx pre hpre base hbase
  obtain ⟨V, hV, c1, c2, c3, -⟩ := hx' pre' hpre' base' hbase'
  refine ⟨U, hU, V, hV, b1, c1, b2, c2, ?_⟩
  intro n k k' s d x a uval vval hs ha hu hv hrange
  rw [← hP] at b3 c3
  have hu' : uval = ((10 ^ (siPrefix? pre).power * r.value : ℚ) : ℝ) := by rw [hu]; push_cast; rfl
  have hv' : vval = ((10 ^ (siPrefix? pre').power * r'.value : ℚ) : ℝ) := by rw [hv]; push_cast; rfl
  obtain ⟨u1, u2⟩ := hrange uval (by simp)
  obtain ⟨v1, v2⟩ := hrange vval (by simp)
  obtain ⟨w1, w2⟩ := hrange (a * uval) (by simp)
  obtain ⟨z1, z2⟩ := hrange (a * uval / vval) (by simp)
  have hmn : 0 < s.base.minNormal := by cases s.base <;> simp only [FloatTy.minNormal] <;> positivity
  have hlarge : 0 < s.base.large := by cases s.base <;> simp only [FloatTy.large] <;> positivity
  obtain ⟨φ, hφ, eφ⟩ := into_si std s.base b3 (by rw [← hu']; linarith) (by rw [← hu']; linarith)
  obtain ⟨ψ, hψ, eψ⟩ := into_si std s.base c3 (by rw [← hv']; linarith) (by rw [← hv']; linarith)
  rw [← hu'] at eφ
  rw [← hv'] at eψ
  have hv0 : vval ≠ 0 := by rintro h; rw [h] at v1; simp at v1; linarith
  have small : siFactorError std s.base ≤ 1 / 4 := by
    cases s.base <;> cases std <;> simp only [siFactorError] <;> norm_num
  obtain ⟨y, z, q, e1, e2, e3, e4⟩ := C51_conversion P n k k' hs d U.mag V.mag x ha hφ hψ eφ eψ hv0 small small w1 w2 z1 z2
  refine ⟨y, z, q, e1, e2, e3, e4.trans (mul_le_mul_of_nonneg_right ?_ (abs_nonneg _))⟩
  cases s.base <;> cases std <;> simp only [siConversionError, siFactorError, FloatTy.unitRoundoff] <;> norm_num

/-! ### Sums -/

/-- Adding numbers up from the left, starting with a number that is already off by `e`. -/
theorem foldl_error (t : FloatTy) (c : ℝ) (hc0 : 0 ≤ c) (N : Nat) (hN : (N : ℝ) * t.unitRoundoff ≤ 1 / 4) (xs : List Fl) (vs : List ℚ) (hv : xs.map t.fmt.val = vs.map some)
    (k : Nat) (hk : k + xs.length ≤ N) (y : Fl) (v : ℚ) (hy : t.fmt.val y = some v) (S : ℝ) (A : ℝ) (hA : |S| ≤ A)
    (he : |(v : ℝ) - S| ≤ 2 * k * c) (hc : t.unitRoundoff * (A + (vs.map fun q : ℚ => |(q : ℝ)|).sum) + t.underflowUnit ≤ c)
    (hl : A + (vs.map fun q : ℚ => |(q : ℝ)|).sum + 2 * N * c < t.large) :
    ∃ w : ℚ, t.fmt.val (xs.foldl t.fmt.add y) = some w ∧ |(w : ℝ) - (S + (vs.map fun q : ℚ => (q : ℝ)).sum)| ≤ 2 * (k + xs.length) * c := by
  induction xs generalizing vs k y v S A with
  | nil =>
    obtain rfl : vs = [] := by simpa using hv.symm
    exact ⟨v, hy, by simpa using he⟩
  | cons x xs ih =>
    cases vs with
    | nil => simp at hv
    | cons q vs =>
      simp only [List.map_cons, List.cons.injEq] at hv
      obtain ⟨hx, hv⟩ := hv
      simp only [List.length_cons] at hk
      simp only [List.map_cons, List.sum_cons] at hc hl ⊢
      have hs0 : 0 ≤ (vs.map fun q : ℚ => |(q : ℝ)|).sum := List.sum_nonneg (by simp only [List.mem_map]; rintro x ⟨y, _, rfl⟩; positivity)
      have hq0 := abs_nonneg (q : ℝ)
      have hu := unitRoundoff_pos t
      have hkN : (k : ℝ) + 1 ≤ N := by exact_mod_cast (by omega : k + 1 ≤ N)
      have hkc : 2 * (k : ℝ) * c ≤ 2 * N * c := by nlinarith
      have h1 : Bounded.Holds t y ⟨S, 2 * k * c, True⟩ := fun _ => ⟨v, hy, he⟩
      have h2 : Bounded.Holds t x ⟨q, 0, True⟩ := fun _ => ⟨q, hx, by simp⟩
      have hSq : |S + (q : ℝ)| ≤ A + |(q : ℝ)| := (abs_add_le _ _).trans (by linarith)
      obtain ⟨w, hw, ew⟩ := book_addV h1 h2 ⟨⟨trivial, trivial⟩, by
        show |S + (q : ℝ)| + (2 * k * c + 0) < t.large
        linarith⟩
      replace ew : |(w : ℝ) - (S + (q : ℝ))| ≤ (2 * k * c + 0) + (t.unitRoundoff * (|S + (q : ℝ)| + (2 * k * c + 0)) + t.underflowUnit) := ew
      have e1 : t.unitRoundoff * (|S + (q : ℝ)| + (2 * k * c + 0)) ≤ t.unitRoundoff * (A + |(q : ℝ)|) + 2 * (k * t.unitRoundoff) * c := by
        have := mul_le_mul_of_nonneg_left hSq hu.le
        nlinarith
      have e2 : (k : ℝ) * t.unitRoundoff ≤ 1 / 4 := by nlinarith
      have e3 : 2 * (k * t.unitRoundoff) * c ≤ 1 / 2 * c := by nlinarith
      have e4 : t.unitRoundoff * (A + |(q : ℝ)|) + t.underflowUnit ≤ c := by nlinarith
      obtain ⟨z, hz, ez⟩ := ih vs hv (k + 1) (by omega) (t.fmt.add y x) w hw (S + q) (A + |(q : ℝ)|) hSq
        (by push_cast; linarith) (by rw [add_assoc]; exact hc) (by rw [add_assoc A]; exact hl)
      refine ⟨z, hz, ?_⟩
      simp only [List.length_cons]
      push_cast at ez ⊢
      rw [← add_assoc]
      linarith

/-- **C51, sums.** `iter.sum()` over any number `N` of `f32` or `f64` quantities (up to `2^22` for `f32`, `2^51` for `f64`): the result is
finite and within `2N·(u·Σ|xᵢ| + η)` of the exact sum, `u` being the unit roundoff and `η` half the smallest number, as long as `Σ|xᵢ|` is not
within a factor 2 of the overflow threshold. -/
theorem C51_sum {E : Type} [FieldOps E] [DecidableEq E] (P : PlatformFns) (n : Nat) (s : Storage) (hs : s.isFloat = true) (d : DimVal E) (xs : List Fl) (vs : List ℚ)
    (hv : xs.map s.base.fmt.val = vs.map some) (hN : (xs.length : ℝ) * s.base.unitRoundoff ≤ 1 / 4)
    (hl : (vs.map fun q : ℚ => |(q : ℝ)|).sum ≤ s.base.large / 2) :
    letI := softPrims P
    ∃ (w : Fl) (q : ℚ), (Fn.sum s d).run n (xs.map fun _ => .quantity s d) (xs.map fun x => (.quantity [x] : Val Fl Magnitude)) = some (.quantity [w]) ∧
      s.base.fmt.val w = some q ∧
      |(q : ℝ) - (vs.map fun q : ℚ => (q : ℝ)).sum| ≤
        2 * xs.length * (s.base.unitRoundoff * (vs.map fun q : ℚ => |(q : ℝ)|).sum + s.base.underflowUnit) := by
  letI := softPrims P
  have hs0 : 0 ≤ (vs.map fun q : ℚ => |(q : ℝ)|).sum := List.sum_nonneg (by simp only [List.mem_map]; rintro x ⟨y, _, rfl⟩; positivity)
  set T := (vs.map fun q : ℚ => |(q : ℝ)|).sum with hT
  have hu := unitRoundoff_pos s.base
  have hη := underflowUnit_pos s.base
  obtain ⟨v, hy, ev⟩ := book_zero s.base trivial
  have hfit : 2 * (xs.length : ℝ) * s.base.underflowUnit < s.base.large / 4 := by
    have h1 : (xs.length : ℝ) * s.base.underflowUnit ≤ 1 / 4 := by
      have : s.base.underflowUnit ≤ s.base.unitRoundoff := by
        cases s.base
        · show (2 : ℝ) ^ (-150 : ℤ) ≤ 2 ^ (-24 : ℤ); exact zpow_le_zpow_right₀ (by norm_num) (by norm_num)
        · show (2 : ℝ) ^ (-1075 : ℤ) ≤ 2 ^ (-53 : ℤ); exact zpow_le_zpow_right₀ (by norm_num) (by norm_num)
      have h0 : (0 : ℝ) ≤ xs.length := Nat.cast_nonneg _
      nlinarith
    have h2 : (4 : ℝ) ≤ s.base.large := by
      rw [show (4 : ℝ) = 2 ^ (2 : ℤ) by norm_num]
      cases s.base
      · show (2 : ℝ) ^ (2 : ℤ) ≤ 2 ^ (127 : ℤ); exact zpow_le_zpow_right₀ (by norm_num) (by norm_num)
      · show (2 : ℝ) ^ (2 : ℤ) ≤ 2 ^ (1023 : ℤ); exact zpow_le_zpow_right₀ (by norm_num) (by norm_num)
    linarith
  obtain ⟨w, hw, ew⟩ := foldl_error s.base (s.base.unitRoundoff * T + s.base.underflowUnit) (by positivity) xs.length hN xs vs hv 0 (by omega)
    (s.base.fmt.ofInt 0) v hy 0 0 (by simp) (by simpa [Bounded.exactly] using ev) (by simp [hT]) (by
      rw [← hT]
      have : (xs.length : ℝ) * s.base.unitRoundoff * T ≤ 1 / 4 * T := mul_le_mul_of_nonneg_right hN hs0
      have hlarge : 0 < s.base.large := by cases s.base <;> simp only [FloatTy.large] <;> positivity
      nlinarith)
  refine ⟨_, w, C43_sum_float (M := Magnitude) n s hs d xs, hw, ?_⟩
  simpa using ew

/-! ### The hypotheses can be met -/

/-- Platforms as assumed exist. -/
example (std : Bool) : ∃ P : PlatformFns, P.Ieee std := exists_ieee std

/-- Books in order, and how good the bound is: `(q₀ + q₁) / q₁` for `f64` quantities known exactly to be 1 and 3, the result being 4/3 up to
less than `2^-51`. -/
example [IdealFns] (std : Bool) : ∃ b : Bounded,
    (letI := bookPrims std .f64
     (Calc.op ⟨.div, qG, qG⟩ .f64 .f64 (.op ⟨.add, qG, qG⟩ .f64 .f64 (.var 0) (.var 1)) (.var 1) : Calc Int Empty).eval 7 (fun u => u.elim)
      [(.quantity [.exactly 1] : Val Bounded Bounded), .quantity [.exactly 3]]) = some (.quantity [b]) ∧ b.ok ∧ b.value = 4 / 3 ∧ b.err ≤ 1 / 2 ^ 51 := by
  refine ⟨(Bounded.div .f64 ((Bounded.add .f64 (.exactly 1) (.exactly 3)).only .f64 .f64) (.exactly 3)).only .f64 .f64, rfl, ?_⟩
  have hl : (2 : ℝ) ^ (10 : ℤ) ≤ 2 ^ (1023 : ℤ) := zpow_le_zpow_right₀ (by norm_num) (by norm_num)
  have hη : (2 : ℝ) ^ (-1075 : ℤ) ≤ 2 ^ (-60 : ℤ) := zpow_le_zpow_right₀ (by norm_num) (by norm_num)
  have hη0 : (0 : ℝ) < 2 ^ (-1075 : ℤ) := by positivity
  simp only [Bounded.only, Bounded.div, Bounded.add, Bounded.rounded, Bounded.exactly, FloatTy.unitRoundoff, FloatTy.underflowUnit, FloatTy.large]
  generalize (2 : ℝ) ^ (-1075 : ℤ) = η at *
  generalize (2 : ℝ) ^ (1023 : ℤ) = L at *
  norm_num [abs_of_pos] at hη hl ⊢
  refine ⟨⟨?_, ?_⟩, ?_⟩ <;> linarith

end Diman
