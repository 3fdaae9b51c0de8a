import Verif.Props.C05
import Verif.Props.C07
import Verif.Proofs.Float
/-!
# C41 Dimension definitions contain no numeric factor other than one

As stated this holds for integer literals. For decimal literals the code compares the nearest double with `1.0`, so literals that are not one
but round to it are accepted too (`C41_not_exactly_one`); the exact set of accepted literals is `C41_literal_partial`.
-/
set_option linter.unusedSectionVars false
namespace Diman

theorem oneBits_mag : f64Fmt.mag (1023 * 2 ^ 52) = 1 ∧ f64Fmt.mag (1023 * 2 ^ 52 + 1) = 1 + 1 / 2 ^ 52 ∧
    f64Fmt.mag (1023 * 2 ^ 52 - 1) = 1 - 1 / 2 ^ 53 := by decide +kernel

theorem rne_floor_even {s : ℚ} {z : Int} (h1 : (z : ℚ) ≤ s) (h2 : s ≤ z + 1 / 2) (hz : z % 2 = 0) : rne s = z := by
  have hf : s.floor = z := by
    rw [rat_floor_eq, Int.floor_eq_iff]
    exact ⟨h1, by linarith⟩
  unfold rne
  simp only [hf]
  split
  · rfl
  · split
    · rename_i h; linarith
    · rfl

theorem rne_ceil_even {s : ℚ} {z : Int} (h1 : (z : ℚ) - 1 / 2 ≤ s) (h2 : s < z) (hz : z % 2 = 0) : rne s = z := by
  have hf : s.floor = z - 1 := by
    rw [rat_floor_eq, Int.floor_eq_iff]
    exact ⟨by push_cast; linarith, by push_cast; linarith⟩
  unfold rne
  simp only [hf]
  split
  · rename_i h; push_cast at h; linarith
  · split
    · omega
    · rw [if_neg (by omega)]; omega

theorem round_one_iff {q : ℚ} (hq : 0 < q) : f64Fmt.round q = 1023 * 2 ^ 52 ↔ 1 - 1 / 2 ^ 54 ≤ q ∧ q ≤ 1 + 1 / 2 ^ 53 := by
  constructor
  · intro h
    have ho : f64Fmt.round q < f64Fmt.infBits := by rw [h]; decide +kernel
    have h1 := round_nearest f64Fmt (by decide) hq ho (1023 * 2 ^ 52 + 1)
    have h2 := round_nearest f64Fmt (by decide) hq ho (1023 * 2 ^ 52 - 1)
    rw [h, oneBits_mag.1, oneBits_mag.2.1] at h1
    rw [h, oneBits_mag.1, oneBits_mag.2.2] at h2
    norm_num at h1 h2 ⊢
    constructor
    · by_contra hc
      push Not at hc
      rcases abs_cases (1 - q) with ⟨e1, _⟩ | ⟨e1, _⟩ <;>
        rcases abs_cases (9007199254740991 / 9007199254740992 - q) with ⟨e2, _⟩ | ⟨e2, _⟩ <;> rw [e1, e2] at h2 <;> linarith
    · by_contra hc
      push Not at hc
      rcases abs_cases (1 - q) with ⟨e1, _⟩ | ⟨e1, _⟩ <;>
        rcases abs_cases (4503599627370497 / 4503599627370496 - q) with ⟨e2, _⟩ | ⟨e2, _⟩ <;> rw [e1, e2] at h1 <;> linarith
  · rintro ⟨h1, h2⟩
    norm_num at h1 h2
    unfold Fmt.round
    rw [if_neg (not_le.2 hq)]
    rcases le_or_gt 1 q with h | h
    · have hl : log2 q = 0 := log2_unique (by rw [pow2_zero]; exact h) (by rw [pow2_eq]; norm_num; linarith)
      have hs : rne (q * pow2 52) = 2 ^ 52 :=
        rne_floor_even (by rw [pow2_eq]; norm_num; linarith) (by rw [pow2_eq]; norm_num; linarith) (by norm_num)
      simp only [hl]
      norm_num [f64Fmt] at hs ⊢
      rw [hs]
      decide +kernel
    · have hl : log2 q = -1 := log2_unique (by rw [pow2_eq]; norm_num; linarith) (by rw [pow2_eq]; norm_num; linarith)
      have hs : rne (q * pow2 53) = 2 ^ 53 :=
        rne_ceil_even (by rw [pow2_eq]; norm_num; linarith) (by rw [pow2_eq]; norm_num; linarith) (by norm_num)
      simp only [hl]
      norm_num [f64Fmt] at hs ⊢
      rw [hs]
      decide +kernel

theorem round_nonpos {q : ℚ} (h : q ≤ 0) : f64Fmt.round q = 0 := by unfold Fmt.round; rw [if_pos h]

theorem toF64_one_iff (n : Number) : n.toF64 = .num false (1023 * 2 ^ 52) ↔ 1 - 1 / 2 ^ 54 ≤ n.value ∧ n.value ≤ 1 + 1 / 2 ^ 53 := by
  cases n with
  | int v =>
    simp only [Number.toF64, Fmt.ofInt, Fl.num.injEq, decide_eq_false_iff_not, not_lt, Number.value]
    rcases lt_trichotomy v 0 with h | rfl | h
    · have : (v : ℚ) < 0 := by exact_mod_cast h
      constructor
      · rintro ⟨h1, -⟩; omega
      · rintro ⟨h1, -⟩; norm_num at h1; linarith
    · rw [Int.natAbs_zero, Nat.cast_zero, round_zero]; norm_num
    · have hv : ((v.natAbs : Nat) : ℚ) = (v : ℚ) := by
        conv_rhs => rw [← Int.natAbs_of_nonneg h.le]
        simp
      rw [hv, round_one_iff (by exact_mod_cast h)]
      simp [h.le]
  | float neg m e =>
    simp only [Number.toF64, Fl.num.injEq, Number.value]
    cases neg with
    | true =>
      have : 0 ≤ (m : ℚ) * 10 ^ e := by positivity
      constructor
      · rintro ⟨h, -⟩; cases h
      · rintro ⟨h, -⟩; norm_num at h; linarith
    | false =>
      simp only [true_and, Bool.false_eq_true, if_false, one_mul]
      rcases Nat.eq_zero_or_pos m with rfl | hm
      · simp only [Nat.cast_zero, zero_mul, round_zero]
        norm_num
      · exact round_one_iff (by positivity)

/-- **C41.** A number in a factor of a dimension definition, followed by anything, is accepted if and only if its value lies in
`[1 - 2⁻⁵⁴, 1 + 2⁻⁵³]`. (Partial: the property wants only one itself to be accepted.) -/
theorem C41_literal_partial (n : Number) (pre rest : List Tok) (h : WrittenNumber n pre) :
    (parseDimensionAtom (pre ++ rest)).isSome = true ↔ 1 - 1 / 2 ^ 54 ≤ n.value ∧ n.value ≤ 1 + 1 / 2 ^ 53 := by
  rw [← toF64_one_iff]
  obtain ⟨p1, -, -⟩ := written_peekLit h rest
  simp only [parseDimensionAtom, p1, if_true, parseOne, parseNumber_complete h rest, Option.bind_eq_bind, Option.bind_some]
  by_cases hn : n.isOne = true
  · simp [hn, feq_one_iff.1 hn]
  · simp only [hn]
    have : ¬n.toF64 = .num false (1023 * 2 ^ 52) := fun hh => hn (feq_one_iff.2 hh)
    simp only [this, iff_false]
    simp

/-- **C41.** Integer literals: exactly `1` is accepted. -/
theorem C41_integer (v : Int) (pre rest : List Tok) (h : WrittenInt v pre) :
    (parseDimensionAtom (pre ++ rest)).isSome = true ↔ v = 1 := by
  rw [C41_literal_partial (.int v) pre rest h]
  simp only [Number.value]
  constructor
  · rintro ⟨h1, h2⟩
    norm_num at h1 h2
    have a : (0 : ℚ) < v := by linarith
    have b : (v : ℚ) < 2 := by linarith
    have a : 0 < v := by exact_mod_cast a
    have b : v < 2 := by exact_mod_cast b
    omega
  · rintro rfl
    norm_num

/-- **C41.** The decimals with value one (`1.0`, `1.`, `10e-1`, …) are accepted. -/
theorem C41_decimal_one (m : Nat) (e : Int) (rest : List Tok) (h : (m : ℚ) * 10 ^ e = 1) :
    parseDimensionAtom (.float m e :: rest) = some (.concrete (), rest) := by
  have := (C41_literal_partial (.float false m e) [.float m e] rest rfl).2 (by simp only [Number.value]; simp [h])
  obtain ⟨⟨a, r⟩, ha⟩ := Option.isSome_iff_exists.1 this
  rw [List.singleton_append] at ha
  rw [ha]
  obtain ⟨pre, hp, hts⟩ := parseDimensionAtom_spec.sound ha
  cases a with
  | other x => obtain ⟨-, rfl⟩ := hp; simp at hts
  | concrete u =>
    have := parseDimensionAtom_spec.complete (show WrittenDimensionAtom (.concrete ()) [.float m e] from
      ⟨.float false m e, rfl, (toF64_one_iff _).2 (by simp only [Number.value]; simp [h])⟩) rest
    rw [List.singleton_append, ha] at this
    exact this

/-- **C41.** Literals that are not one but round to `1.0` are accepted: `1.00000000000000000001`. -/
theorem C41_not_exactly_one :
    (Number.float false 100000000000000000001 (-20)).value ≠ 1 ∧
    parseDimensionAtom [.float 100000000000000000001 (-20)] = some (.concrete (), []) := by
  refine ⟨?_, ?_⟩
  · simp only [Number.value]; norm_num
  · have h : (Number.float false 100000000000000000001 (-20)).toF64 = .num false (1023 * 2 ^ 52) :=
      (toF64_one_iff _).2 (by simp only [Number.value]; norm_num)
    have := parseDimensionAtom_spec.complete (show WrittenDimensionAtom (.concrete ()) [.float 100000000000000000001 (-20)] from
      ⟨.float false 100000000000000000001 (-20), rfl, h⟩) []
    exact this

section
variable {rational : Bool}
mutual
theorem written_dim_of {P : Number → Prop} (hP : ∀ n, P n → n.toF64 = .num false (1023 * 2 ^ 52)) :
    ∀ (f : Factor (Atom Number) ExpSyn) (ts : List Tok), WrittenFactor WrittenAtom rational f ts → (∀ n, .concrete n ∈ f.vals → P n) →
    WrittenFactor WrittenDimensionAtom rational (f.map (Atom.mapConcrete fun _ => ())) ts
  | .value a, ts, h, hv => by
    simp only [WrittenFactor, Factor.map] at h ⊢
    cases a with
    | other x => exact h
    | concrete n => exact ⟨n, h, hP n (hv n (by simp [Factor.vals]))⟩
  | .power a x, ts, h, hv => by
    simp only [WrittenFactor, Factor.map] at h ⊢
    obtain ⟨ta, tx, h1, h2, h3⟩ := h
    refine ⟨ta, tx, ?_, h2, h3⟩
    cases a with
    | other x => exact h1
    | concrete n => exact ⟨n, h1, hP n (hv n (by simp [Factor.vals]))⟩
  | .paren e, ts, h, hv => by
    simp only [WrittenFactor, Factor.map] at h ⊢
    obtain ⟨c, h1, h2⟩ := h
    exact ⟨c, writtenExpr_dim_of hP e c h1 (fun n hn => hv n (by simpa only [Factor.vals] using hn)), h2⟩
theorem writtenExpr_dim_of {P : Number → Prop} (hP : ∀ n, P n → n.toF64 = .num false (1023 * 2 ^ 52)) :
    ∀ (e : Expr (Atom Number) ExpSyn) (ts : List Tok), WrittenExpr WrittenAtom rational e ts → (∀ n, .concrete n ∈ e.vals → P n) →
    WrittenExpr WrittenDimensionAtom rational (e.map (Atom.mapConcrete fun _ => ())) ts
  | .value f, ts, h, hv => by
    simp only [WrittenExpr, Expr.map] at h ⊢
    exact written_dim_of hP f ts h (fun n hn => hv n (by simpa only [Expr.vals] using hn))
  | .binary l o r, ts, h, hv => by
    simp only [WrittenExpr, Expr.map] at h ⊢
    obtain ⟨tl, tp, tr, h1, h2, h3, h4⟩ := h
    exact ⟨tl, tp, tr, writtenExpr_dim_of hP l tl h1 (fun n hn => hv n (by simp [Expr.vals, hn])),
      written_dim_of hP r tr h2 (fun n hn => hv n (by simp [Expr.vals, hn])), h3, h4⟩
end

theorem writtenAtom_of_dim {a : Atom Unit} {ts : List Tok} (h : WrittenDimensionAtom a ts) :
    ∃ b, WrittenAtom b ts ∧ ∀ n, b = .concrete n → n.toF64 = .num false (1023 * 2 ^ 52) := by
  cases a with
  | other x => exact ⟨.other x, h, by rintro n ⟨⟩⟩
  | concrete u => obtain ⟨n, h1, h2⟩ := h; exact ⟨.concrete n, h1, by rintro m ⟨⟩; exact h2⟩

mutual
theorem writtenFactor_of_dim : ∀ (f : Factor (Atom Unit) ExpSyn) (ts : List Tok), WrittenFactor WrittenDimensionAtom rational f ts →
    ∃ g, WrittenFactor WrittenAtom rational g ts ∧ ∀ n, .concrete n ∈ g.vals → n.toF64 = .num false (1023 * 2 ^ 52)
  | .value a, ts, h => by
    simp only [WrittenFactor] at h
    obtain ⟨b, h1, h2⟩ := writtenAtom_of_dim h
    exact ⟨.value b, by simpa only [WrittenFactor] using h1, by simp only [Factor.vals, List.mem_singleton]; exact fun n hn => h2 n hn.symm⟩
  | .power a x, ts, h => by
    simp only [WrittenFactor] at h
    obtain ⟨ta, tx, h1, h2, h3⟩ := h
    obtain ⟨b, h4, h5⟩ := writtenAtom_of_dim h1
    exact ⟨.power b x, by simp only [WrittenFactor]; exact ⟨ta, tx, h4, h2, h3⟩,
      by simp only [Factor.vals, List.mem_singleton]; exact fun n hn => h5 n hn.symm⟩
  | .paren e, ts, h => by
    simp only [WrittenFactor] at h
    obtain ⟨c, h1, h2⟩ := h
    obtain ⟨g, h3, h4⟩ := writtenExpr_of_dim e c h1
    exact ⟨.paren g, by simp only [WrittenFactor]; exact ⟨c, h3, h2⟩, by simpa only [Factor.vals] using h4⟩
theorem writtenExpr_of_dim : ∀ (e : Expr (Atom Unit) ExpSyn) (ts : List Tok), WrittenExpr WrittenDimensionAtom rational e ts →
    ∃ g, WrittenExpr WrittenAtom rational g ts ∧ ∀ n, .concrete n ∈ g.vals → n.toF64 = .num false (1023 * 2 ^ 52)
  | .value f, ts, h => by
    simp only [WrittenExpr] at h
    obtain ⟨g, h1, h2⟩ := writtenFactor_of_dim f ts h
    exact ⟨.value g, by simpa only [WrittenExpr] using h1, by simpa only [Expr.vals] using h2⟩
  | .binary l o r, ts, h => by
    simp only [WrittenExpr] at h
    obtain ⟨tl, tp, tr, h1, h2, h3, h4⟩ := h
    obtain ⟨gl, i1, i2⟩ := writtenExpr_of_dim l tl h1
    obtain ⟨gr, j1, j2⟩ := writtenFactor_of_dim r tr h2
    refine ⟨.binary gl o gr, by simp only [WrittenExpr]; exact ⟨tl, tp, tr, i1, j1, h3, h4⟩, ?_⟩
    simp only [Expr.vals, List.mem_append]
    rintro n (h | h)
    · exact i2 n h
    · exact j2 n h
end
end

/-- **C41.** A whole right-hand side is accepted as a dimension definition if and only if it is an expression all of whose numeric factors,
at any depth, are in that interval; what is kept is that expression with the numbers forgotten. (Partial: the property wants "are one".) -/
theorem C41_definition_partial (rational : Bool) (ts : List Tok) (d : Expr (Atom Unit) ExpSyn) :
    parseExprTop parseDimensionAtom rational ts = some (d, []) ↔
      ∃ e, parseExprTop parseMagnitudeAtom rational ts = some (e, []) ∧ d = e.map (Atom.mapConcrete fun _ => ()) ∧
        ∀ n, .concrete n ∈ e.vals → 1 - 1 / 2 ^ 54 ≤ n.value ∧ n.value ≤ 1 + 1 / 2 ^ 53 := by
  have key : ∀ e, WrittenExpr WrittenAtom rational e ts → (∀ n, .concrete n ∈ e.vals → 1 - 1 / 2 ^ 54 ≤ n.value ∧ n.value ≤ 1 + 1 / 2 ^ 53) →
      parseExprTop parseDimensionAtom rational ts = some (e.map (Atom.mapConcrete fun _ => ()), []) := fun e h hv =>
    (C05_dimension_iff rational ts [] _).2 ⟨ts, writtenExpr_dim_of (fun n => (toF64_one_iff n).2) e ts h hv, by simp, .inl rfl⟩
  constructor
  · intro h
    obtain ⟨pre, h1, h2, -⟩ := (C05_dimension_iff rational ts [] d).1 h
    rw [List.append_nil] at h2
    subst h2
    obtain ⟨e, h3, h4⟩ := writtenExpr_of_dim d ts h1
    have h5 : ∀ n, .concrete n ∈ e.vals → 1 - 1 / 2 ^ 54 ≤ n.value ∧ n.value ≤ 1 + 1 / 2 ^ 53 := fun n hn => (toF64_one_iff n).1 (h4 n hn)
    have := key e h3 h5
    rw [h] at this
    simp only [Option.some.injEq, Prod.mk.injEq, and_true] at this
    exact ⟨e, (C05_iff rational ts [] e).2 ⟨ts, h3, by simp, .inl rfl⟩, this, h5⟩
  · rintro ⟨e, h1, rfl, h2⟩
    obtain ⟨pre, h3, h4, -⟩ := (C05_iff rational ts [] e).1 h1
    rw [List.append_nil] at h4
    subst h4
    exact key e h3 h2

mutual
theorem Expr.map_id' {T E : Type} : ∀ e : Expr T E, e.map (fun a => a) = e
  | .value f => by simp [Expr.map, Factor.map_id' f]
  | .binary l o r => by simp [Expr.map, Expr.map_id' l, Factor.map_id' r]
theorem Factor.map_id' {T E : Type} : ∀ f : Factor T E, f.map (fun a => a) = f
  | .value v => rfl
  | .power v x => rfl
  | .paren e => by simp [Factor.map, Expr.map_id' e]
end

section
variable {E M : Type} [Exponent E] [LawfulExponent E] [MagOps E M]
open LawfulExponent

/-- **C41.** Numeric factors contribute no dimension: in every accepted unit system, a dimension defined by an expression has, for every
base dimension, the exponent computed with the numbers counting zero and only the named dimensions counting. -/
theorem C41_no_dimension (factor : Prefix → M) (t : UnresolvedTemplates E M) (defs : Defs E M)
    (accepted : runUnitSystem factor t = some (defs, []))
    (literals : (UnresolvedTemplates.expand (MagOps.one E) factor t).GoodExponents)
    (d : DimensionEntry E) (hd : d ∈ t.dimensions) (e : Expr (Atom Unit) E) (he : d.rhs = .expression e) :
    ∃ D ∈ defs.dimensions, D.name = d.name ∧
      ∀ k, D.dims.expo k = e.specExpo (fun a k => match a with | .concrete _ => 0 | .other x => defs.dimExpo x k) k := by
  obtain ⟨D, hD, hn, hk⟩ := (C07_equations factor t defs accepted literals).1 d hd
  refine ⟨D, hD, hn, fun k => ?_⟩
  rw [hk k, he]
  have : ∀ a, Atom.expo defs.dimExpo a k = (fun a k => match a with | .concrete _ => 0 | .other x => defs.dimExpo x k : Atom Unit → Str → ℚ) a k := by
    intro a; cases a <;> rfl
  have hc := Expr.specExpo_congr (fun a : Atom Unit => a) (Atom.expo defs.dimExpo)
    (fun a k => match a with | .concrete _ => 0 | .other x => defs.dimExpo x k) k e (fun a _ => (this a))
  rw [Expr.map_id'] at hc
  exact hc
end

/-- Concrete instances: `1 / time` and `1.0 * length` are accepted, `2 * length` and `length / 60.0` are not. -/
example :
    (parseExprTop parseDimensionAtom false [.int 1, .punct '/', .ident (str!"time")]).isSome = true ∧
    (parseExprTop parseDimensionAtom false [.float 10 (-1), .punct '*', .ident (str!"length")]).isSome = true ∧
    (parseExprTop parseDimensionAtom false [.int 2, .punct '*', .ident (str!"length")]).isSome = false ∧
    (parseExprTop parseDimensionAtom false [.ident (str!"length"), .punct '/', .float 600 (-1)]).isSome = false := by
  decide +kernel

end Diman
