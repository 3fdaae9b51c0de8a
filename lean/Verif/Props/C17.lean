import Verif.Proofs.DimType
/-!
# C17 — Dimension arithmetic forms the group of exponent vectors
`DimVal E` is a value of the generated dimension type; `E` is either exponent type (`Int`, or `Ratio` with rational dimensions). The
methods are evaluated at compile time, `none` being a compile error (overflow, failed divisibility). `vec` is the exponent vector.
-/
set_option linter.unusedSectionVars false
namespace Diman
open LawfulExponent
variable {E : Type} [Exponent E] [LawfulExponent E] [FieldOps E] [LawfulFieldOps E]

/-- `n` factors of the dimension `a` multiplied together, one after the other. -/
def DimVal.nfold (a : DimVal E) : Nat → Option (DimVal E)
  | 0 => some (DimVal.none a.length)
  | n + 1 => do (← a.nfold n).add a

theorem DimVal.zeros_eq (a : DimVal E) : List.replicate a.length (0 : ℚ) = a.vec.map fun _ => 0 := by
  induction a with
  | nil => rfl
  | cons x a ih => simp only [List.length_cons, List.replicate_succ, ih, DimVal.vec, List.map_cons]

/-- The methods compute with exponent vectors: sum, difference, negation, multiple, half, third. -/
theorem C17_vectors {a b c : DimVal E} (ha : a.Canonical) (hb : b.Canonical) (n : Int) :
    (a.add b = some c → c.vec = List.zipWith (· + ·) a.vec b.vec) ∧
    (a.sub b = some c → c.vec = List.zipWith (· - ·) a.vec b.vec) ∧
    (a.neg = some c → c.vec = a.vec.map (- ·)) ∧
    (a.mul n = some c → c.vec = a.vec.map (· * (n : ℚ))) ∧
    (a.div2 = some c → c.vec = a.vec.map (· / 2)) ∧
    (a.div3 = some c → c.vec = a.vec.map (· / 3)) ∧
    ((DimVal.none a.length : DimVal E).vec = a.vec.map fun _ => 0) :=
  ⟨fun h => (DimVal.add_spec ha hb h).2.1, fun h => (DimVal.sub_spec ha hb h).2.1, fun h => (DimVal.neg_spec ha h).2,
    fun h => (DimVal.mul_spec ha h).2, fun h => (DimVal.div2_spec ha h).2, fun h => (DimVal.div3_spec ha h).2,
    by rw [DimVal.none_vec, DimVal.zeros_eq]⟩

/-- All results are again in normal form, so that `==` on them (and type identity) is equality of exponent vectors. -/
theorem C17_normal_form {a b c : DimVal E} (ha : a.Canonical) (hb : b.Canonical) {n : Int}
    (h : a.add b = some c ∨ a.sub b = some c ∨ a.neg = some c ∨ a.mul n = some c ∨ a.div2 = some c ∨ a.div3 = some c) :
    c.Canonical := by
  rcases h with h | h | h | h | h | h
  · exact (DimVal.add_spec ha hb h).1
  · exact (DimVal.sub_spec ha hb h).1
  · exact (DimVal.neg_spec ha h).1
  · exact (DimVal.mul_spec ha h).1
  · exact (DimVal.div2_spec ha h).1
  · exact (DimVal.div3_spec ha h).1

/-- Two dimension values in normal form are the same type iff they have the same exponents. -/
theorem C17_same_type_iff {a b : DimVal E} (ha : a.Canonical) (hb : b.Canonical) : a = b ↔ a.vec = b.vec :=
  ⟨fun h => h ▸ rfl, DimVal.ext ha hb⟩

/-- Commutativity, including whether it compiles. -/
theorem C17_comm (a b : DimVal E) : a.add b = b.add a := DimVal.map2_comm LawfulFieldOps.add_comm a b

/-- Associativity: both groupings, when they compile, are the same type. -/
theorem C17_assoc {a b c ab bc x y : DimVal E} (ha : a.Canonical) (hb : b.Canonical) (hc : c.Canonical)
    (hab : a.add b = some ab) (hx : ab.add c = some x) (hbc : b.add c = some bc) (hy : a.add bc = some y) : x = y := by
  have s1 := DimVal.add_spec ha hb hab
  have s2 := DimVal.add_spec hb hc hbc
  have s3 := DimVal.add_spec s1.1 hc hx
  have s4 := DimVal.add_spec ha s2.1 hy
  refine DimVal.ext s3.1 s4.1 ?_
  rw [s3.2.1, s4.2.1, s1.2.1, s2.2.1]
  generalize a.vec = u; generalize b.vec = v; generalize c.vec = w
  induction u generalizing v w with
  | nil => simp
  | cons p u ih =>
    cases v <;> cases w <;> simp [ih, add_assoc]

theorem zipWith_map_right {α : Type*} (f : α → α → α) (g : α → α) (l : List α) : List.zipWith f l (l.map g) = l.map fun x => f x (g x) := by
  induction l with
  | nil => rfl
  | cons x l ih => simp [ih]

/-- The dimensionless dimension is the identity. -/
theorem C17_identity {a c : DimVal E} (ha : a.Canonical) (h : a.add (DimVal.none a.length) = some c) : c = a := by
  have s := DimVal.add_spec ha (DimVal.none_canonical _) h
  refine DimVal.ext s.1 ha ?_
  rw [s.2.1, DimVal.none_vec, DimVal.zeros_eq, zipWith_map_right]; simp

/-- Inversion gives the inverse: `D * D⁻¹` is dimensionless. -/
theorem C17_inverse {a b c : DimVal E} (ha : a.Canonical) (h : a.neg = some b) (h2 : a.add b = some c) : c = DimVal.none a.length := by
  have s := DimVal.neg_spec ha h
  have s2 := DimVal.add_spec ha s.1 h2
  refine DimVal.ext s2.1 (DimVal.none_canonical _) ?_
  rw [s2.2.1, s.2, zipWith_map_right, DimVal.none_vec, DimVal.zeros_eq]
  simp

/-- Division is multiplication by the inverse. -/
theorem C17_quotient {a b nb c c' : DimVal E} (ha : a.Canonical) (hb : b.Canonical) (h : a.sub b = some c) (hn : b.neg = some nb)
    (h' : a.add nb = some c') : c = c' := by
  have s := DimVal.sub_spec ha hb h
  have s1 := DimVal.neg_spec hb hn
  have s2 := DimVal.add_spec ha s1.1 h'
  refine DimVal.ext s.1 s2.1 ?_
  rw [s.2.1, s2.2.1, s1.2]
  generalize a.vec = u; generalize b.vec = v
  induction u generalizing v with
  | nil => simp
  | cons p u ih => cases v with
    | nil => simp
    | cons q v => simp only [List.zipWith_cons_cons, List.map_cons, ih v]; rw [sub_eq_add_neg]

theorem DimVal.nfold_spec {a : DimVal E} (ha : a.Canonical) {n : Nat} {c : DimVal E} (h : a.nfold n = some c) :
    c.Canonical ∧ c.vec = a.vec.map (· * (n : ℚ)) := by
  induction n generalizing c with
  | zero =>
    simp only [DimVal.nfold, Option.some.injEq] at h; subst h
    exact ⟨DimVal.none_canonical _, by rw [DimVal.none_vec, DimVal.zeros_eq]; simp⟩
  | succ n ih =>
    simp only [DimVal.nfold, bindM_eq_some] at h
    obtain ⟨d, hd, h⟩ := h
    obtain ⟨i1, i2⟩ := ih hd
    have s := DimVal.add_spec i1 ha h
    refine ⟨s.1, ?_⟩
    rw [s.2.1, i2]
    generalize a.vec = u
    induction u with
    | nil => rfl
    | cons x u ih => simp [ih, mul_add]

/-- Raising to the power `n` is multiplying `n` factors; raising to `-n` is the inverse of that. -/
theorem C17_power {a c c' : DimVal E} {n : Nat} (ha : a.Canonical) (h' : a.nfold n = some c') :
    (a.mul n = some c → c = c') ∧ (a.mul (-(n : Int)) = some c → ∀ d, c'.neg = some d → c = d) := by
  obtain ⟨n1, n2⟩ := DimVal.nfold_spec ha h'
  refine ⟨fun h => ?_, fun h d hd => ?_⟩
  · have s := DimVal.mul_spec ha h
    exact DimVal.ext s.1 n1 (by rw [s.2, n2]; simp)
  · have s := DimVal.mul_spec ha h
    have s2 := DimVal.neg_spec n1 hd
    exact DimVal.ext s.1 s2.1 (by rw [s.2, s2.2, n2]; simp)

/-- Roots undo powers and powers undo roots. -/
theorem C17_roots_undo {a b c : DimVal E} (ha : a.Canonical) :
    (a.mul 2 = some b → b.div2 = some c → c = a) ∧ (a.div2 = some b → b.mul 2 = some c → c = a) ∧
    (a.mul 3 = some b → b.div3 = some c → c = a) ∧ (a.div3 = some b → b.mul 3 = some c → c = a) := by
  refine ⟨fun h1 h2 => ?_, fun h1 h2 => ?_, fun h1 h2 => ?_, fun h1 h2 => ?_⟩
  · have s := DimVal.mul_spec ha h1
    have s2 := DimVal.div2_spec s.1 h2
    exact DimVal.ext s2.1 ha (by rw [s2.2, s.2]; simp [Function.comp_def])
  · have s := DimVal.div2_spec ha h1
    have s2 := DimVal.mul_spec s.1 h2
    exact DimVal.ext s2.1 ha (by rw [s2.2, s.2]; simp [Function.comp_def])
  · have s := DimVal.mul_spec ha h1
    have s2 := DimVal.div3_spec s.1 h2
    exact DimVal.ext s2.1 ha (by rw [s2.2, s.2]; simp [Function.comp_def])
  · have s := DimVal.div3_spec ha h1
    have s2 := DimVal.mul_spec s.1 h2
    exact DimVal.ext s2.1 ha (by rw [s2.2, s.2]; simp [Function.comp_def])

/-- Integer dimensions: a square (cube) root is accepted exactly when every exponent is divisible by two (three). -/
theorem C17_root_accepted_iff (a : DimVal Int) :
    ((a.div2).isSome ↔ ∀ e ∈ a, 2 ∣ e) ∧ ((a.div3).isSome ↔ ∀ e ∈ a, 3 ∣ e) := by
  constructor <;> first | unfold DimVal.div2 | unfold DimVal.div3
  all_goals
    rw [DimVal.map1_isSome]
    refine forall_congr' fun e => forall_congr' fun _ => ?_
    simp only [FieldOps.div2, FieldOps.div3]
  · by_cases h : e.tmod 2 = 0
    · simp [h, Int.dvd_of_tmod_eq_zero h]
    · simp only [h, not_false_eq_true, ne_eq, if_true]
      simp only [Option.isSome_none, Bool.false_eq_true, false_iff]
      exact fun hd => h (Int.tmod_eq_zero_of_dvd hd)
  · by_cases h : e.tmod 3 = 0
    · simp [h, Int.dvd_of_tmod_eq_zero h]
    · simp only [h, not_false_eq_true, ne_eq, if_true]
      simp only [Option.isSome_none, Bool.false_eq_true, false_iff]
      exact fun hd => h (Int.tmod_eq_zero_of_dvd hd)

/-- Integer dimensions: every operation other than the roots is accepted exactly when all resulting exponents fit in `i64`; in
particular the group laws never fail to compile on one side only, except through overflow. -/
theorem C17_int_accepted_iff (a b : DimVal Int) (n : Int) (hl : a.length = b.length) :
    ((a.add b).isSome ↔ ∀ p ∈ List.zip a b, IsI64 (p.1 + p.2)) ∧ ((a.sub b).isSome ↔ ∀ p ∈ List.zip a b, IsI64 (p.1 - p.2)) ∧
    ((a.neg).isSome ↔ ∀ e ∈ a, IsI64 (-e)) ∧ ((a.mul n).isSome ↔ ∀ e ∈ a, IsI64 (e * n)) := by
  have hi : ∀ x, (i64 x).isSome ↔ IsI64 x := by
    intro x; unfold i64 IsI64; split <;> simp_all
  have h2 : ∀ (f : Int → Int → Int) (a b : DimVal Int), a.length = b.length →
      ((DimVal.map2 (fun x y => i64 (f x y)) a b).isSome ↔ ∀ p ∈ List.zip a b, IsI64 (f p.1 p.2)) := by
    intro f a
    induction a with
    | nil => intro b hb; cases b with
      | nil => simp [DimVal.map2]
      | cons y b => simp at hb
    | cons x a ih =>
      intro b hb
      cases b with
      | nil => simp at hb
      | cons y b =>
        simp only [List.length_cons, Nat.add_right_cancel_iff] at hb
        simp only [DimVal.map2, List.zip_cons_cons, List.mem_cons, forall_eq_or_imp]
        rw [← ih b hb, ← hi]
        cases i64 (f x y) <;> cases DimVal.map2 (fun x y => i64 (f x y)) a b <;> simp
  refine ⟨h2 (· + ·) a b hl, h2 (· - ·) a b hl, ?_, ?_⟩
  · unfold DimVal.neg; rw [DimVal.map1_isSome]; exact forall_congr' fun e => forall_congr' fun _ => hi _
  · unfold DimVal.mul; rw [DimVal.map1_isSome]; exact forall_congr' fun e => forall_congr' fun _ => hi _

/-- With rational dimensions roots need no divisibility: `√Length` has exponent 1/2. -/
theorem C17_rational_root (k : Nat) : DimVal.div2 (List.replicate k (Ratio.int 1)) = some (List.replicate k (⟨1, 2⟩ : Ratio)) := by
  have h : FieldOps.div2 (Ratio.int 1) = some (⟨1, 2⟩ : Ratio) := by decide +kernel
  unfold DimVal.div2
  induction k with
  | zero => rfl
  | succ k ih => simp only [List.replicate_succ, DimVal.map1, h, ih]; rfl

/-! Concrete cases: velocity = length / time, its square, the root of that, and a refused root. -/
example : DimVal.sub [1, 0, 0] ([0, 1, 0] : DimVal Int) = some [1, -1, 0] := by decide
example : DimVal.mul ([1, -1, 0] : DimVal Int) 2 = some [2, -2, 0] := by decide
example : DimVal.nfold ([1, -1, 0] : DimVal Int) 2 = some [2, -2, 0] := by decide
example : DimVal.div2 ([2, -2, 0] : DimVal Int) = some [1, -1, 0] := by decide
example : DimVal.div2 ([1, -2, 0] : DimVal Int) = none := by decide
example : DimVal.mul ([⟨1, 2⟩, ⟨-1, 3⟩] : DimVal Ratio) 2 = some [⟨1, 1⟩, ⟨-2, 3⟩] := by decide +kernel
example : DimVal.add ([⟨1, 2⟩, ⟨-1, 3⟩] : DimVal Ratio) [⟨-1, 2⟩, ⟨1, 3⟩] = some (DimVal.none 2) := by decide +kernel
example : DimVal.Canonical ([⟨1, 2⟩, ⟨-1, 3⟩] : DimVal Ratio) := by
  intro e he
  simp only [List.mem_cons, List.not_mem_nil, or_false] at he
  rcases he with rfl | rfl <;> show Ratio.Canonical _ <;> decide

end Diman
