import Verif.Proofs.Root
import Verif.Props.C25
import Verif.Props.C31
/-!
# C58: square roots undo squares, and lengths bound components, exactly
On real floats, not in exact arithmetic: with correctly rounded `sqrt` (IEEE 754; `PlatformFns.NearestSqrt`) and the `powi` of either build.
-/
namespace Diman
section
variable {E : Type} [FieldOps E] [DecidableEq E]

/-- `q.squared().sqrt()` is `|q|`, bit for bit, for every float whose square is a normal number (lib.rs:100-105 asserts it for one). -/
theorem C58_root_of_square {P : PlatformFns} {std : Bool} (hP : P.BuildPowi std) (hs : P.NearestSqrt) {n : Nat} {s : Storage} {d : DimVal E}
    {t u : Ty E} (h : (Fn.squared).sig n [.quantity s d] = some t) (h' : (Fn.sqrt).sig n [t] = some u)
    (x : Fl) {a : ℚ} (hx : s.base.fmt.val x = some a) (h1 : s.base.normal ≤ (a : ℝ) ^ 2) (h2 : (a : ℝ) ^ 2 < s.base.large) :
    letI := softPrims P
    ((Fn.squared).run n [.quantity s d] [(.quantity [x] : Val Fl Magnitude)] >>= fun v => (Fn.sqrt).run n [t] [v]) =
      some (.quantity [x.abs]) := by
  let := softPrims P
  obtain ⟨p, rfl⟩ : ∃ p, t = .quantity s p := by
    simp only [Fn.sig] at h
    split at h
    · obtain ⟨p, _, rfl⟩ := Option.map_eq_some_iff.1 h; exact ⟨p, rfl⟩
    · cases h
  rw [(C25_values x).1 .squared h, Option.bind_eq_bind, Option.bind_some, (C25_values _).2.1 h']
  obtain ⟨sg, k, rfl, hk, rfl⟩ := fmtVal_inv hx
  have hsq : ((if sg then -s.base.fmt.mag k else s.base.fmt.mag k : ℚ) : ℝ) ^ 2 = ((s.base.fmt.mag k : ℚ) : ℝ) ^ 2 := by
    cases sg <;> simp
  rw [hsq] at h1 h2
  show some (Val.quantity [P.sqrt s.base (P.powi s.base (.num sg k) 2)]) = _
  rw [powi_two hP, mul_num s.base.fmt hk hk, show (sg != sg) = false by cases sg <;> rfl, (sqrt_square hs s.base hk h1 h2).2]
  rfl

/-- `sqrt` of an exact square is exact: if the value is the square of a float, the result is that float. -/
theorem C58_exact {P : PlatformFns} (hs : P.NearestSqrt) {n : Nat} {s : Storage} {d : DimVal E} {u : Ty E}
    (h : (Fn.sqrt).sig n [.quantity s d] = some u) {k r : Nat} (hk : k < s.base.fmt.infBits) (hr : r < s.base.fmt.infBits)
    (hsq : s.base.fmt.mag k = s.base.fmt.mag r ^ 2) :
    letI := softPrims P
    (Fn.sqrt).run n [.quantity s d] [(.quantity [.num false k] : Val Fl Magnitude)] = some (.quantity [.num false r]) := by
  let := softPrims P
  rw [(C25_values _).2.1 h]
  obtain ⟨m, hm, he, hmin⟩ := hs.finite s.base k hk
  show some (Val.quantity [P.sqrt s.base (.num false k)]) = _
  have hroot : Real.sqrt (s.base.fmt.mag k : ℚ) = (s.base.fmt.mag r : ℚ) := by
    rw [hsq, Rat.cast_pow, Real.sqrt_sq (by exact_mod_cast mag_nonneg _ _)]
  have := hmin r hr
  rw [hroot, sub_self, abs_zero, abs_nonpos_iff, sub_eq_zero] at this
  have hmr : m = r := (mag_strictMono _ (fmt_p _)).injective (by exact_mod_cast this)
  rw [he, hmr]

/-- `sqrt` keeps the order of quantities that are not negative, infinity included. -/
theorem C58_monotone {P : PlatformFns} (hs : P.NearestSqrt) {n : Nat} {s : Storage} {d : DimVal E} {u : Ty E}
    (h : (Fn.sqrt).sig n [.quantity s d] = some u) {a b : Nat} (hab : a ≤ b) (hb : b ≤ s.base.fmt.infBits) :
    letI := softPrims P
    ∃ x y : Fl, (Fn.sqrt).run n [.quantity s d] [(.quantity [.num false a] : Val Fl Magnitude)] = some (.quantity [x]) ∧
      (Fn.sqrt).run n [.quantity s d] [(.quantity [.num false b] : Val Fl Magnitude)] = some (.quantity [y]) ∧
      (x.lt y || x.feq y) = true := by
  let := softPrims P
  obtain ⟨m, m', e, e', hle, _⟩ := sqrt_le hs s.base hb hab
  refine ⟨.num false m, .num false m', ?_, ?_, ?_⟩
  · rw [(C25_values _).2.1 h]; exact congrArg (fun y => some (Val.quantity [y])) e
  · rw [(C25_values _).2.1 h]; exact congrArg (fun y => some (Val.quantity [y])) e'
  · rcases eq_or_lt_of_le hle with rfl | hlt
    · simp [Fl.feq]
    · simp [Fl.lt, hlt]

theorem foldl_add_ge (f : Fmt) (hp : 1 ≤ f.p) : ∀ (l : List Nat) (a : Nat), a ≤ f.infBits → (∀ b ∈ l, b ≤ f.infBits) →
    ∃ c, (l.map (Fl.num false)).foldl f.add (.num false a) = .num false c ∧ c ≤ f.infBits ∧ a ≤ c ∧ ∀ b ∈ l, b ≤ c
  | [], a, ha, _ => ⟨a, rfl, ha, le_rfl, by simp⟩
  | b :: l, a, ha, hl => by
    obtain ⟨c, e, h1, h2, h3⟩ := add_nonneg_ge f hp ha (hl b (by simp))
    obtain ⟨c', e', i1, i2, i3⟩ := foldl_add_ge f hp l c h3 fun x hx => hl x (by simp [hx])
    refine ⟨c', ?_, i1, h1.trans i2, ?_⟩
    · rw [List.map_cons, List.foldl_cons, e, e']
    · intro x hx
      rcases List.mem_cons.1 hx with rfl | hx
      · exact h2.trans i2
      · exact i3 x hx

theorem foldl_add_zeros (f : Fmt) (hp : 1 ≤ f.p) : ∀ (l : List Nat) (a : Nat), a ≤ f.infBits → (∀ b ∈ l, b = 0) →
    (l.map (Fl.num false)).foldl f.add (.num false a) = .num false a
  | [], _, _, _ => rfl
  | b :: l, a, ha, hl => by
    rw [List.map_cons, List.foldl_cons, hl b (by simp), (add_zero_fl f hp ha).1]
    exact foldl_add_zeros f hp l a ha fun x hx => hl x (by simp [hx])

theorem foldl_add_single (f : Fmt) (hp : 1 ≤ f.p) : ∀ (l : List Nat) (i : Nat) (a : Nat), l[i]? = some a → a ≤ f.infBits →
    (∀ j b, j ≠ i → l[j]? = some b → b = 0) → (l.map (Fl.num false)).foldl f.add (.num false 0) = .num false a
  | [], _, _, h, _, _ => by simp at h
  | b :: l, 0, a, h, ha, hz => by
    simp only [List.getElem?_cons_zero, Option.some.injEq] at h
    subst h
    rw [List.map_cons, List.foldl_cons, (add_zero_fl f hp ha).2]
    refine foldl_add_zeros f hp l b ha fun x hx => ?_
    obtain ⟨j, hj⟩ := List.getElem?_of_mem hx
    exact hz (j + 1) x (by omega) (by simpa using hj)
  | b :: l, i + 1, a, h, ha, hz => by
    rw [List.map_cons, List.foldl_cons, hz 0 b (by omega) (by simp), (add_zero_fl f hp (Nat.zero_le _)).1]
    exact foldl_add_single f hp l i a (by simpa using h) ha fun j c hj hc => hz (j + 1) c (by omega) (by simpa using hc)

/-- The squares of finite components. -/
theorem squares_eq {P : PlatformFns} (t : FloatTy) (r : List Fl) (hr : ∀ x ∈ r, (t.fmt.val x).isSome) :
    ∃ l : List Nat, l.length = r.length ∧ (letI := softPrims P; List.zipWith (Prims.mul Magnitude t) r r = l.map (Fl.num false)) ∧
      (∀ b ∈ l, b ≤ t.fmt.infBits) ∧
      ∀ (i : Nat) (sg : Bool) (k : Nat), r[i]? = some (Fl.num sg k) → l[i]? = some (t.fmt.round (t.fmt.mag k * t.fmt.mag k)) := by
  let := softPrims P
  induction r with
  | nil => exact ⟨[], rfl, rfl, by simp, by simp⟩
  | cons x r ih =>
    obtain ⟨l, h0, h1, h2, h3⟩ := ih fun y hy => hr y (by simp [hy])
    obtain ⟨v, hv⟩ := Option.isSome_iff_exists.1 (hr x (by simp))
    obtain ⟨sg, k, rfl, hk, rfl⟩ := fmtVal_inv hv
    refine ⟨t.fmt.round (t.fmt.mag k * t.fmt.mag k) :: l, by simp [h0], ?_, ?_, ?_⟩
    · rw [List.zipWith_cons_cons, h1, List.map_cons]
      congr 1
      show t.fmt.mul _ _ = _
      rw [mul_num t.fmt hk hk]
      cases sg <;> rfl
    · intro b hb
      rcases List.mem_cons.1 hb with rfl | hb
      · exact round_le_inf _ _
      · exact h2 b hb
    · intro i sg' k' hi
      cases i with
      | zero => simp only [List.getElem?_cons_zero, Option.some.injEq, Fl.num.injEq] at hi; simp [hi.2]
      | succ i => simp only [List.getElem?_cons_succ] at hi ⊢; exact h3 i sg' k' hi

/-- The length of a vector is at least the size of every component whose square is a normal number, also in floating point and also if the
length overflows: `q.length() >= q.x().abs()` is true. -/
theorem C58_length {P : PlatformFns} (hs : P.NearestSqrt) {n : Nat} {s : Storage} (hv : s.isVector = true) {d : DimVal E} (r : List Fl)
    (hr : ∀ x ∈ r, (s.base.fmt.val x).isSome) {i : Nat} {x : Fl} (hi : r[i]? = some x) {a : ℚ} (hx : s.base.fmt.val x = some a)
    (h1 : s.base.normal ≤ (a : ℝ) ^ 2) (h2 : (a : ℝ) ^ 2 < s.base.large) :
    letI := softPrims P
    ∃ l : Fl, (Fn.length).run n [.quantity s d] [(.quantity r : Val Fl Magnitude)] = some (.quantity [l]) ∧ (x.abs.lt l || x.abs.feq l) = true := by
  let := softPrims P
  obtain ⟨sg, k, rfl, hk, rfl⟩ := fmtVal_inv hx
  obtain ⟨l, hlen, hsq, hle, hget⟩ := squares_eq (P := P) s.base r hr
  have hsq' : ((if sg then -s.base.fmt.mag k else s.base.fmt.mag k : ℚ) : ℝ) ^ 2 = ((s.base.fmt.mag k : ℚ) : ℝ) ^ 2 := by
    cases sg <;> simp
  rw [hsq'] at h1 h2
  have hmem := hget i sg k hi
  cases l with
  | nil => simp at hmem
  | cons b l =>
    obtain ⟨c, e, hc, hb, hall⟩ := foldl_add_ge s.base.fmt (fmt_p _) l b (hle b (by simp)) fun y hy => hle y (by simp [hy])
    have hcs : s.base.fmt.round (s.base.fmt.mag k * s.base.fmt.mag k) ≤ c := by
      rcases List.mem_cons.1 (List.mem_of_getElem? hmem) with h | h
      · rw [h]; exact hb
      · exact hall _ h
    have hdot : rawDot Magnitude s.base r r = some (.num false c) := by
      rw [rawDot, hsq, List.map_cons]
      exact congrArg some e
    obtain ⟨m, m', e1, e2, hm, _⟩ := sqrt_le hs s.base hc hcs
    rw [(sqrt_square hs s.base hk h1 h2).2] at e1
    cases e1
    refine ⟨.num false m', ?_, ?_⟩
    · have hsig : ((Fn.length : Fn E).sig n [.quantity s d]) = some (.quantity s.base.storage d) := by simp [Fn.sig, hv]
      simp only [Fn.run, hsig, Option.isNone_some, Bool.false_eq_true, if_false, Fn.body, storageOf, Option.getD_some, rawLength, hdot,
        Option.map_some]
      exact congrArg (fun y => some (Val.quantity [y])) e2
    · rcases eq_or_lt_of_le hm with rfl | hlt
      · simp [Fl.feq, Fl.abs]
      · simp [Fl.lt, Fl.abs, hlt]

/-- The length of a vector along an axis (all other components zero) is exactly the size of its component. -/
theorem C58_axis_length {P : PlatformFns} (hs : P.NearestSqrt) {n : Nat} {s : Storage} (hv : s.isVector = true) {d : DimVal E} (r : List Fl)
    {i : Nat} {x : Fl} (hi : r[i]? = some x) (hz : ∀ j y, j ≠ i → r[j]? = some y → ∃ sg, y = .num sg 0) {a : ℚ}
    (hx : s.base.fmt.val x = some a) (h1 : s.base.normal ≤ (a : ℝ) ^ 2) (h2 : (a : ℝ) ^ 2 < s.base.large) :
    letI := softPrims P
    (Fn.length).run n [.quantity s d] [(.quantity r : Val Fl Magnitude)] = some (.quantity [x.abs]) := by
  let := softPrims P
  have hr : ∀ y ∈ r, (s.base.fmt.val y).isSome := by
    intro y hy
    obtain ⟨j, hj⟩ := List.getElem?_of_mem hy
    by_cases hji : j = i
    · subst hji; rw [hi] at hj; cases hj; simp [hx]
    · obtain ⟨sg, rfl⟩ := hz j y hji hj
      rw [fmtVal_num _ (infBits_pos _)]; rfl
  obtain ⟨sg, k, rfl, hk, rfl⟩ := fmtVal_inv hx
  obtain ⟨l, hlen, hsq, hle, hget⟩ := squares_eq (P := P) s.base r hr
  have hsq' : ((if sg then -s.base.fmt.mag k else s.base.fmt.mag k : ℚ) : ℝ) ^ 2 = ((s.base.fmt.mag k : ℚ) : ℝ) ^ 2 := by
    cases sg <;> simp
  rw [hsq'] at h1 h2
  have hmem := hget i sg k hi
  have hzero : ∀ j b, j ≠ i → l[j]? = some b → b = 0 := by
    intro j b hj hb
    have hjr : j < r.length := by rw [← hlen]; exact (List.getElem?_eq_some_iff.1 hb).1
    obtain ⟨sg', hy⟩ := hz j r[j] hj (List.getElem?_eq_getElem hjr)
    have := hget j sg' 0 (by rw [List.getElem?_eq_getElem hjr, hy])
    rw [hb] at this
    simpa [mag_zero, round_zero] using this
  have hfold : rawDot Magnitude s.base r r = some (.num false (s.base.fmt.round (s.base.fmt.mag k * s.base.fmt.mag k))) := by
    rw [rawDot, hsq]
    cases l with
    | nil => simp at hmem
    | cons b l =>
      have := foldl_add_single s.base.fmt (fmt_p _) (b :: l) i _ hmem (round_le_inf _ _) hzero
      rw [List.map_cons, List.foldl_cons, (add_zero_fl _ (fmt_p _) (hle b (by simp))).2] at this
      exact congrArg some this
  have hsig : ((Fn.length : Fn E).sig n [.quantity s d]) = some (.quantity s.base.storage d) := by simp [Fn.sig, hv]
  simp only [Fn.run, hsig, Option.isNone_some, Bool.false_eq_true, if_false, Fn.body, storageOf, Option.getD_some, rawLength, hfold,
    Option.map_some]
  exact congrArg (fun y => some (Val.quantity [y])) (sqrt_square hs s.base hk h1 h2).2
end

/-! ### The hypotheses can be met -/

open Classical in
/-- There is such a platform, and it satisfies the weaker error bound that C51 asks for. -/
theorem exists_nearestSqrt (std : Bool) : ∃ P : PlatformFns, P.BuildPowi std ∧ P.NearestSqrt ∧ P.Ieee std := by
  have hex : ∀ (t : FloatTy) (n : Nat), ∃ m < t.fmt.infBits, ∀ k < t.fmt.infBits,
      |((t.fmt.mag m : ℚ) : ℝ) - Real.sqrt (t.fmt.mag n : ℚ)| ≤ |((t.fmt.mag k : ℚ) : ℝ) - Real.sqrt (t.fmt.mag n : ℚ)| := by
    intro t n
    obtain ⟨m, hm, h⟩ := Finset.exists_min_image (Finset.range t.fmt.infBits) (fun m => |((t.fmt.mag m : ℚ) : ℝ) - Real.sqrt (t.fmt.mag n : ℚ)|)
      ⟨0, Finset.mem_range.2 (infBits_pos t)⟩
    exact ⟨m, Finset.mem_range.1 hm, fun k hk => h k (Finset.mem_range.2 hk)⟩
  let sq : FloatTy → Fl → Fl := fun t x => match x with
    | .nan => .nan
    | .num s n => if n < t.fmt.infBits then (if s ∧ n = 0 then .num true 0 else .num false (hex t n).choose) else .num s n
  let P : PlatformFns := ⟨buildLib std fun _ _ => .nan, fun t x e => if std then powiCompilerRt t.fmt x e else powiNumTraits t.fmt x e, sq,
    fun _ x => x, fun _ _ x => x⟩
  have hs : P.NearestSqrt := by
    refine ⟨fun t n hn => ⟨(hex t n).choose, (hex t n).choose_spec.1, ?_, (hex t n).choose_spec.2⟩, fun t => ?_⟩
    · simp only [P, sq, hn, if_true]; simp
    · simp [P, sq]
  refine ⟨P, fun _ _ _ => rfl, hs, ⟨_, rfl⟩, fun _ _ _ => rfl, ?_⟩
  intro t x v hv h0
  obtain ⟨s, n, rfl, hn, rfl⟩ := fmtVal_inv hv
  by_cases hz : s = true
  · subst hz
    have hm := mag_nonneg t.fmt n
    simp only [if_true] at h0 ⊢
    have h00 : t.fmt.mag n = 0 := by linarith
    have hn0 : n = 0 := by
      by_contra h; have := mag_pos t.fmt (Nat.pos_of_ne_zero h); linarith
    subst hn0
    refine ⟨0, ?_, ?_⟩
    · simp only [P, sq, hn, if_true, and_self, fmtVal_num t.fmt hn, h00, neg_zero]
    · simp [h00, (underflowUnit_pos t).le]
  · have hs' : s = false := by simpa using hz
    subst hs'
    exact NearestSqrt.bound hs t hn

/-- `-0.1`, whose square is not a float: the hypotheses of `C58_root_of_square` hold. -/
example (std : Bool) : ∃ (P : PlatformFns) (a : ℚ), P.BuildPowi std ∧ P.NearestSqrt ∧
    FloatTy.f64.fmt.val (.num true 0x3fb999999999999a) = some a ∧ FloatTy.normal .f64 ≤ (a : ℝ) ^ 2 ∧ (a : ℝ) ^ 2 < FloatTy.large .f64 ∧
    (Fn.squared : Fn Int).sig 2 [.quantity .f64 [1, -1]] = some (.quantity .f64 [2, -2]) ∧
    (Fn.sqrt : Fn Int).sig 2 [.quantity .f64 [2, -2]] = some (.quantity .f64 [1, -1]) := by
  obtain ⟨P, h1, h2, _⟩ := exists_nearestSqrt std
  refine ⟨P, -(3602879701896397 / 2 ^ 55), h1, h2, by decide +kernel, ?_, ?_, by decide +kernel, by decide +kernel⟩
  · refine le_trans (b := (2 : ℝ) ^ (-7 : ℤ)) (zpow_le_zpow_right₀ (by norm_num) (by norm_num)) ?_
    norm_num
  · refine lt_of_lt_of_le (b := (2 : ℝ) ^ (0 : ℤ)) ?_ (zpow_le_zpow_right₀ (by norm_num) (by norm_num))
    norm_num

/-- The square of `0.1` is rounded. -/
example : f64Fmt.mag (f64Fmt.round (f64Fmt.mag 0x3fb999999999999a * f64Fmt.mag 0x3fb999999999999a)) ≠
    f64Fmt.mag 0x3fb999999999999a * f64Fmt.mag 0x3fb999999999999a := by decide +kernel

/-- If the square underflows the number is lost: `1e-200` squared is zero, and so is the root. -/
theorem C58_underflow {P : PlatformFns} {std : Bool} (hP : P.BuildPowi std) (hs : P.NearestSqrt) :
    letI := softPrims P
    ((Fn.squared : Fn Int).run 1 [.quantity .f64 [1]] [(.quantity [.num false 0x16687e92154ef7ac] : Val Fl Magnitude)] >>=
      fun v => (Fn.sqrt : Fn Int).run 1 [.quantity .f64 [2]] [v]) = some (.quantity [.num false 0]) := by
  let := softPrims P
  rw [(C25_values (E := Int) (n := 1) (s := .f64) (d := [1]) (t := .quantity .f64 [2]) (Fl.num false 0x16687e92154ef7ac)).1 .squared (by decide +kernel),
    Option.bind_eq_bind, Option.bind_some, (C25_values (E := Int) (n := 1) (s := .f64) (d := [2]) (t := .quantity .f64 [1]) _).2.1 (by decide +kernel)]
  show some (Val.quantity [P.sqrt .f64 (P.powi .f64 _ 2)]) = _
  rw [powi_two hP, show FloatTy.f64.fmt.mul (.num false 0x16687e92154ef7ac) (.num false 0x16687e92154ef7ac) = .num false 0 by decide +kernel]
  obtain ⟨m, hm, he, hmin⟩ := hs.finite .f64 0 (by decide +kernel)
  have := hmin 0 (by decide +kernel)
  rw [mag_zero, Rat.cast_zero, Real.sqrt_zero, sub_self, abs_zero, abs_nonpos_iff, sub_zero] at this
  have hm0 : m = 0 := by
    by_contra h
    have := mag_pos f64Fmt (Nat.pos_of_ne_zero h)
    have h' : f64Fmt.mag m = 0 := by exact_mod_cast ‹((FloatTy.f64.fmt.mag m : ℚ) : ℝ) = 0›
    linarith
  rw [he, hm0]

/-- Vectors: `(3, -4)` and `(0, -0.1)` meet the hypotheses of `C58_length` and `C58_axis_length`. -/
example : (∀ x ∈ [Fl.num false 0x4008000000000000, .num true 0x4010000000000000], (f64Fmt.val x).isSome) ∧
    f64Fmt.val (.num true 0x4010000000000000) = some (-4) ∧ FloatTy.normal .f64 ≤ ((-4 : ℚ) : ℝ) ^ 2 ∧ ((-4 : ℚ) : ℝ) ^ 2 < FloatTy.large .f64 ∧
    ∀ j y, j ≠ 1 → [Fl.num false 0, .num true 0x3fb999999999999a][j]? = some y → ∃ sg, y = .num sg 0 := by
  refine ⟨by decide +kernel, by decide +kernel, ?_, ?_, ?_⟩
  · refine le_trans (b := (2 : ℝ) ^ (4 : ℤ)) (zpow_le_zpow_right₀ (by norm_num) (by norm_num)) ?_
    norm_num
  · refine lt_of_lt_of_le (b := (2 : ℝ) ^ (5 : ℤ)) ?_ (zpow_le_zpow_right₀ (by norm_num) (by norm_num))
    norm_num
  · intro j y hj h
    match j, hj, h with
    | 0, _, h => exact ⟨false, by simpa using h.symm⟩
    | j + 2, _, h => simp at h

end Diman
