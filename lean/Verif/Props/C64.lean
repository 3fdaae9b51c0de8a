import Verif.Props.C63
import Verif.Spec.SiReading
/-!
# C64 — What a text with SI units is read as, by the SI table
-/
set_option linter.unusedSectionVars false
namespace Diman
open LawfulExponent

/-- `C46_si_float` in terms of roundings. -/
theorem si_holds (std : Bool) (powf : Fl → Fl → Fl) :
    @SiFaithful Int Magnitude _ _ _ (magOpsInt (buildLib std powf)) Number.magnitude Prefix.factor (fun k q m =>
      Holds (m.intoF64 (buildLib std powf)) ((if std then 1 else 2) * 17) (10 ^ k * q) ∧
      ∃ x, f64Fmt.val (m.intoF64 (buildLib std powf)) = some x ∧ |x - 10 ^ k * q| ≤ (if std then 17 else 34) / 2 ^ 52 * |10 ^ k * q|) := by
  have hl := buildLib_cost std powf
  generalize hc : (if std then 1 else 2 : Nat) = c at hl
  let mag : Number → Tracked (buildLib std powf) c := fun n => ⟨(n.magnitude, n.estimate), tracks_number hl.toLibStores n⟩
  let factor : Prefix → Tracked (buildLib std powf) c := fun p => ⟨(p.factor, p.estimate), tracks_prefix hl.toLibStores p⟩
  have e1 : (fun t : Tracked (buildLib std powf) c => t.1.2) ∘ mag = Number.estimate := funext fun _ => rfl
  have e2 : (fun t : Tracked (buildLib std powf) c => t.1.2) ∘ factor = Prefix.estimate := funext fun _ => rfl
  have e3 : (fun t : Tracked (buildLib std powf) c => t.1.1) ∘ mag = Number.magnitude := funext fun _ => rfl
  have e4 : (fun t : Tracked (buildLib std powf) c => t.1.1) ∘ factor = Prefix.factor := funext fun _ => rfl
  have h := si_estimates
  rw [← e1, ← e2] at h
  have h1 := @SiFaithful.pull Int (Tracked (buildLib std powf) c) Estimate _ _ _ (trackedOps hl) estimateOps (fun t => t.1.2) (hom_snd hl) mag factor _ h
  rw [← e3, ← e4]
  refine @SiFaithful.push Int (Tracked (buildLib std powf) c) Magnitude _ _ _ (trackedOps hl) (magOpsInt (buildLib std powf)) (fun t => t.1.1)
    (hom_fst hl) mag factor _ _ ?_ h1
  intro k q m h
  simp only [siEstimateOk, Bool.and_eq_true, decide_eq_true_eq] at h
  obtain ⟨⟨hv, hr⟩, hn⟩ := h
  have hc2 : c ≤ 2 := by subst hc; split <;> decide
  have hcn : c * m.1.2.roundings ≤ c * 17 := Nat.mul_le_mul_left _ hn
  have H := (m.2 hr).2 (le_trans hcn (by omega))
  refine ⟨?_, ?_⟩
  · rw [← hv]; exact H.mono hcn
  obtain ⟨x, hx, hcl, _⟩ := H
  refine ⟨x, hx, ?_⟩
  have he := (hcl.mono hcn).err (by omega)
  rw [hv, show pow2 (-52) = 1 / 2 ^ 52 by rw [pow2_eq]; norm_num] at he
  refine le_trans he (le_of_eq ?_)
  subst hc
  cases std <;> push_cast <;> norm_num

/-- The factor of one word. -/
theorem term_holds {std : Bool} {powf : Fl → Fl → Fl} {m : Magnitude} {V : ℚ} {c : Nat} (hc : c = if std then 1 else 2)
    (h : Holds (m.intoF64 (buildLib std powf)) (c * 17) V) {e : Int} (hi : c * (18 * e.natAbs + 1) ≤ 2 ^ 30) (hm : moderate (V ^ e) = true) :
    Holds ((Magnitude.floatPowInt (buildLib std powf) (Magnitude.fromF64 (m.intoF64 (buildLib std powf))) e).intoF64 (buildLib std powf))
      (c * (18 * e.natAbs + 1)) (V ^ e) := by
  have hl := buildLib_cost std powf
  rw [← hc] at hl
  have hc1 : 1 ≤ c := hl.pos
  unfold Magnitude.floatPowInt
  have he : e.natAbs < 2 ^ 31 := by
    have : 1 * (18 * e.natAbs + 1) ≤ c * (18 * e.natAbs + 1) := Nat.mul_le_mul_right _ hc1
    omega
  rw [asI32_small he]
  refine holds_store hl.two ?_
  by_cases h0 : e = 0
  · subst h0
    rw [hl.zero, zpow_zero]
    exact holds_one.mono (Nat.zero_le _)
  · have := hl.pow (c := 17) (holds_store hl.two h) hm (by rw [Nat.mul_comm 18] at hi; exact hi)
    rw [Nat.mul_comm 18]
    exact this

/-- A power of a conversion factor adds a rounding per factor and one more. -/
def PowHolds (E : Type) [Exponent E] [MagOps E Magnitude] (lib : FloatLib) (c : Nat) : Prop :=
  ∀ (m : Magnitude) (V : ℚ) (e : Int), Holds (m.intoF64 lib) (c * 17) V → c * (18 * e.natAbs + 1) ≤ 2 ^ 30 → moderate (V ^ e) = true →
    Holds ((MagOps.pow (Magnitude.fromF64 (m.intoF64 lib)) (Exponent.ofInt e : E) : Magnitude).intoF64 lib) (c * (18 * e.natAbs + 1)) (V ^ e)

theorem powHolds_int (std : Bool) (powf : Fl → Fl → Fl) :
    letI := magOpsInt (buildLib std powf); PowHolds Int (buildLib std powf) (if std then 1 else 2) :=
  fun _ _ _ h hi hm => term_holds rfl h hi hm

/-- The factors of the words, multiplied from left to right. -/
theorem terms_hold {E : Type} [Exponent E] [MagOps E Magnitude] {lib : FloatLib} {c : Nat} (hc1 : 1 ≤ c) (hpow : PowHolds E lib c)
    {us : UnitPowers E Magnitude} {ts : List SiTerm}
    (h : List.Forall₂ (fun ue t => Holds (ue.1.mag.intoF64 lib) (c * 17) t.unit ∧ ue.2 = t.power) us ts)
    {f : Fl} {n : Nat} {p : ℚ} (hf : Holds f n p) (hn : n + c * (ts.map fun t => 18 * t.power.natAbs + 2).sum ≤ 2 ^ 30)
    (h1 : ∀ t ∈ ts, moderate t.size = true) (h2 : ∀ k, moderate (p * siSize (ts.take k)) = true) :
    Holds (us.foldl (fun f ue => f64Fmt.mul f ((MagOps.pow (Magnitude.fromF64 (ue.1.mag.intoF64 lib)) (Exponent.ofInt ue.2 : E) : Magnitude).intoF64 lib)) f)
      (n + c * (ts.map fun t => 18 * t.power.natAbs + 2).sum) (p * siSize ts) := by
  induction h generalizing f n p with
  | nil => simpa [siSize] using hf
  | @cons ue t us ts ht _ ih =>
    obtain ⟨ht1, ht2⟩ := ht
    rw [List.map_cons, List.sum_cons, Nat.mul_add] at hn ⊢
    have e1 : c * (18 * t.power.natAbs + 2) = c * (18 * t.power.natAbs + 1) + c := by ring
    have hp := hpow _ _ t.power ht1 (by omega) (h1 t (by simp))
    have e2 : ∀ ts, p * siSize (t :: ts) = p * t.size * siSize ts := by
      intro ts; rw [siSize, List.map_cons, List.prod_cons, mul_assoc]; rfl
    have hm := holds_mul hf hp (by omega) (by
      have := h2 1
      rw [List.take_succ_cons, List.take_zero, e2] at this
      change moderate (p * t.size) = true
      simpa [siSize] using this)
    rw [List.foldl_cons, ht2, e2, ← Nat.add_assoc]
    refine ih (hm.mono (by omega)) (by omega) (fun t ht => h1 t (by simp [ht])) fun k => ?_
    have := h2 (k + 1)
    rw [List.take_succ_cons, e2] at this
    exact this

theorem terms_of_units {E M : Type} [Exponent E] [LawfulExponent E] {defs : Defs E M} {V : UnitDef E M → SiTerm → Prop}
    (h : ∀ U ∈ defs.units, ∀ sym, U.symbol = some sym → ∃ r ∈ siUnits, ∃ pre sym', r.symbol = some sym' ∧ sym = (siPrefix? pre).symbol ++ sym' ∧
      (∀ k, U.dims.expo k = r.dim.of k) ∧ ∀ e, V U ⟨r, pre, e⟩)
    {ws : List Str} {us : UnitPowers E M} (hn : NamesUnits defs ws us) :
    ∃ ts : List SiTerm, List.Forall₂ (fun w t => t.WrittenAs w) ws ts ∧ (∀ k, us.expo k = siDim ts k) ∧
      List.Forall₂ (fun ue t => V ue.1 t ∧ ue.2 = t.power) us ts := by
  unfold NamesUnits at hn
  induction hn with
  | nil => exact ⟨[], .nil, fun k => rfl, .nil⟩
  | @cons w ue ws us hw _ ih =>
    obtain ⟨ts, g1, g2, g3⟩ := ih
    obtain ⟨hU, sym, hs, hw⟩ := hw
    obtain ⟨r, hr, pre, sym', q1, rfl, q3, q4⟩ := h _ hU _ hs
    refine ⟨⟨r, pre, ue.2⟩ :: ts, .cons ⟨hr, sym', q1, hw⟩ g1, fun k => ?_, .cons ⟨q4 _, rfl⟩ g3⟩
    have : UnitPowers.expo (ue :: us) k = (ue.2 : ℚ) * ue.1.dims.expo k + UnitPowers.expo us k := by simp [UnitPowers.expo]
    rw [this, g2, q3]
    simp [siDim]

/-- The value of one number read with terms. -/
theorem number_holds {E : Type} [Exponent E] [MagOps E Magnitude] {c : Nat} (hc1 : 1 ≤ c) {us : UnitPowers E Magnitude} {ts : List SiTerm}
    (P : PlatformFns) (T : FloatText) (hpow : PowHolds E P.lib c)
    (h : List.Forall₂ (fun ue t => Holds (ue.1.mag.intoF64 P.lib) (c * 17) t.unit ∧ ue.2 = t.power) us ts)
    {x : Fl} {q : ℚ} (hx : f64Fmt.val x = some q) (hq : Comfortable q ts) (hn : c * siRoundings ts ≤ 2 ^ 30) :
    letI := softPrims P; letI := softText T
    ∃ v, f64Fmt.val (f64Fmt.mul x (Fmt.convert f64Fmt f64Fmt (UnitPowers.factor Fl us))) = some v ∧
      |v - q * siSize ts| ≤ (c * siRoundings ts : Nat) / 2 ^ 52 * |q * siSize ts| := by
  let := softPrims P; let := softText T
  obtain ⟨c1, c2, c3, c4⟩ := hq
  have e0 : c * siRoundings ts = c * (ts.map fun t => 18 * t.power.natAbs + 2).sum + c := by unfold siRoundings; ring
  have hf := terms_hold hc1 hpow h (f := f64Fmt.ofInt 1) (n := 0) (p := 1) holds_one (by omega) c2 (fun k => by rw [one_mul]; exact c3 k)
  rw [one_mul, Nat.zero_add] at hf
  have ef : (UnitPowers.factor Fl us : Fl) = us.foldl (fun f ue => f64Fmt.mul f
      ((MagOps.pow (Magnitude.fromF64 (ue.1.mag.intoF64 P.lib)) (Exponent.ofInt ue.2 : E) : Magnitude).intoF64 P.lib)) (f64Fmt.ofInt 1) := rfl
  rw [ef]
  generalize us.foldl _ _ = F at hf
  have hst : Storable F := by
    obtain ⟨v, hv, _, hb, _⟩ := hf
    cases F with
    | nan => simp [Fmt.val] at hv
    | num s n =>
      simp only [Fmt.val] at hv
      split at hv
      · simp at hv
      · rename_i hn
        simp only [Option.some.injEq] at hv
        refine ⟨by omega, .inr ?_⟩
        have : |v| = f64Fmt.mag n := by
          rw [← hv]
          have := mag_nonneg f64Fmt n
          cases s <;> simp [abs_of_nonneg this]
        rw [← this]
        exact le_trans (pow2_le.2 (by norm_num)) hb
  rw [convert_f64 hst]
  have hq0 : Holds x 0 q := by
    have := moderate_iff.1 c1
    exact ⟨q, hx, .refl (moderate_ne c1), le_trans (pow2_le.2 (by norm_num)) this.1, le_trans this.2 (pow2_le.2 (by norm_num))⟩
  obtain ⟨v, hv, hcl, _⟩ := (holds_mul hq0 hf (by omega) c4).mono (show _ ≤ c * siRoundings ts by omega)
  refine ⟨v, hv, ?_⟩
  have := hcl.err hn
  rwa [show pow2 (-52) = 1 / 2 ^ 52 by rw [pow2_eq]; norm_num, mul_one_div] at this

/-! ### The symbols of the table do not clash -/

/-- All symbols of the table with all prefixes, with what they stand for. -/
def siSymbols : List (Str × ℚ × SiExps) :=
  allPrefixes.flatMap fun p => siUnits.filterMap fun r => r.symbol.map fun s => ((siPrefix? p).symbol ++ s, 10 ^ (siPrefix? p).power * r.value, r.dim)

/-- A number for a text, to compare fast. -/
def symCode (s : Str) : Nat := s.foldl (fun n c => n * 2 ^ 21 + c.toNat + 1) 0

def siSymbolsCheck : Bool :=
  let l := siSymbols.map fun a => (symCode a.1, a.2)
  (List.range 251).all fun k =>
    let b := l.filter fun a => a.1 % 251 == k
    b.all fun x => b.all fun y => x.1 != y.1 || (decide (x.2.1 = y.2.1) && decide (x.2.2 = y.2.2))

set_option maxRecDepth 1000000 in
theorem siSymbolsCheck_true : siSymbolsCheck = true := by decide +kernel

theorem siSymbols_inj {s : Str} {v v' : ℚ × SiExps} (h : (s, v) ∈ siSymbols) (h' : (s, v') ∈ siSymbols) : v = v' := by
  have c := siSymbolsCheck_true
  simp only [siSymbolsCheck, List.all_eq_true, List.mem_range, List.mem_filter, List.mem_map, beq_iff_eq, Bool.or_eq_true, bne_iff_ne, ne_eq,
    Bool.and_eq_true, decide_eq_true_eq] at c
  have := c (symCode s % 251) (Nat.mod_lt _ (by norm_num)) (symCode s, v) ⟨⟨_, h, rfl⟩, rfl⟩ (symCode s, v') ⟨⟨_, h', rfl⟩, rfl⟩
  rcases this with this | this
  · exact absurd rfl this
  · exact Prod.ext this.1 this.2

/-- **C64.** No two symbols of the SI table clash, with whatever prefixes: what a word says determines the power, the size of the unit and its dimension. -/
theorem C64_unambiguous (t t' : SiTerm) (w : Str) (h : t.WrittenAs w) (h' : t'.WrittenAs w) :
    t.power = t'.power ∧ t.unit = t'.unit ∧ t.size = t'.size ∧ t.row.dim = t'.row.dim := by
  obtain ⟨hr, s, hs, hw⟩ := h
  obtain ⟨hr', s', hs', hw'⟩ := h'
  obtain ⟨e1, e2⟩ := unitWord_unique hw hw'
  have m : ((siPrefix? t.pre).symbol ++ s, (t.unit, t.row.dim)) ∈ siSymbols :=
    List.mem_flatMap.2 ⟨t.pre, mem_allPrefixes _, List.mem_filterMap.2 ⟨t.row, hr, by rw [hs]; rfl⟩⟩
  have m' : ((siPrefix? t'.pre).symbol ++ s', (t'.unit, t'.row.dim)) ∈ siSymbols :=
    List.mem_flatMap.2 ⟨t'.pre, mem_allPrefixes _, List.mem_filterMap.2 ⟨t'.row, hr', by rw [hs']; rfl⟩⟩
  rw [← e1] at m'
  have := siSymbols_inj m m'
  simp only [Prod.mk.injEq] at this
  refine ⟨e2, this.1, ?_, this.2⟩
  rw [SiTerm.size, SiTerm.size, this.1, e2]

/-- **C64.** So a text has one meaning: all ways to take its words for units of the table give the same size and the same dimension. -/
theorem C64_one_meaning (ws : List Str) (ts ts' : List SiTerm) (h : List.Forall₂ (fun w t => SiTerm.WrittenAs t w) ws ts)
    (h' : List.Forall₂ (fun w t => SiTerm.WrittenAs t w) ws ts') : siSize ts = siSize ts' ∧ ∀ k, siDim ts k = siDim ts' k := by
  induction h generalizing ts' with
  | nil => cases h'; exact ⟨rfl, fun _ => rfl⟩
  | cons h1 h2 ih =>
    cases h' with
    | cons h1' h2' =>
      obtain ⟨i1, i2⟩ := ih _ h2'
      obtain ⟨p, -, sz, d⟩ := C64_unambiguous _ _ _ h1 h1'
      simp only [siSize, siDim] at i1 i2
      refine ⟨?_, fun k => ?_⟩
      · simp only [siSize, List.map_cons, List.prod_cons, i1, sz]
      · simp only [siDim, List.map_cons, List.sum_cons, i2, p, d]

/-- Whatever else a text is taken for, what `C64_si` says about it does not change. -/
theorem same_terms {ws : List Str} {ts ts' : List SiTerm} (h : List.Forall₂ (fun w t => SiTerm.WrittenAs t w) ws ts)
    (h' : List.Forall₂ (fun w t => SiTerm.WrittenAs t w) ws ts') :
    ts.map SiTerm.size = ts'.map SiTerm.size ∧ siRoundings ts = siRoundings ts' := by
  induction h generalizing ts' with
  | nil => cases h'; exact ⟨rfl, rfl⟩
  | cons h1 h2 ih =>
    cases h' with
    | cons h1' h2' =>
      obtain ⟨i1, i2⟩ := ih h2'
      obtain ⟨p, -, sz, d⟩ := C64_unambiguous _ _ _ h1 h1'
      refine ⟨by rw [List.map_cons, List.map_cons, i1, sz], ?_⟩
      simp only [siRoundings] at i2
      simp only [siRoundings, List.map_cons, List.sum_cons, p]
      omega

theorem Comfortable.of_sizes {q : ℚ} {ts ts' : List SiTerm} (h : ts.map SiTerm.size = ts'.map SiTerm.size) (c : Comfortable q ts) : Comfortable q ts' := by
  obtain ⟨c1, c2, c3, c4⟩ := c
  have e : ∀ n, siSize (ts.take n) = siSize (ts'.take n) := fun n => by rw [siSize, siSize, List.map_take, List.map_take, h]
  refine ⟨c1, fun t ht => ?_, fun n => e n ▸ c3 n, ?_⟩
  · obtain ⟨t', ht', e'⟩ := List.mem_map.1 (h.symm ▸ List.mem_map.2 ⟨t, ht, rfl⟩ : t.size ∈ ts.map SiTerm.size)
    exact e' ▸ c2 t' ht'
  · rwa [siSize, ← h]

section
variable {E : Type} [Exponent E] [LawfulExponent E] [FieldOps E] [LawfulFieldOps E] [TotalFields E] [WrittenExponent E] [ReadExponent E] [MagOps E Magnitude]

/-- What is read in double precision, for any kind of exponents. -/
theorem si_reading (P : PlatformFns) (T : FloatText) {c : Nat} (hc1 : 1 ≤ c) (hpow : PowHolds E P.lib c) {t : UnresolvedTemplates E Magnitude}
    {defs : Defs E Magnitude} {A : Int → ℚ → Magnitude → Prop}
    (F : SiFacts Number.magnitude Prefix.factor (fun k q m => Holds (m.intoF64 P.lib) (c * 17) (10 ^ k * q) ∧ A k q m) t defs)
    (literals : (UnresolvedTemplates.expand (MagOps.one E) Prefix.factor t).LitExponents (WrittenExponent.Ok : E → Prop))
    (s : Storage) (target : DimVal E) (canonical : target.Canonical) (text : Str) (r : Raw Fl) (hs : s.base = .f64)
    (run : letI := softPrims P; letI := softText T; deserializeStr Magnitude defs s target text = some (.ok r)) :
    ∃ (nums ws : List Str) (xs : List Fl),
      (if s.isFloat then ∃ num, nums = [num] ∧ Words text (num :: ws)
        else ∃ pre inside post, text = pre ++ '(' :: (inside ++ ')' :: post) ∧ Words inside nums ∧ Words post ws) ∧
      List.Forall₂ (fun w x => T.parseF .f64 w = some x) nums xs ∧ (∃ ts, List.Forall₂ (fun w t => SiTerm.WrittenAs t w) ws ts) ∧
      ∀ ts, List.Forall₂ (fun w t => SiTerm.WrittenAs t w) ws ts →
        target.vec = siBaseFields.map (siDim ts) ∧
        List.Forall₂ (fun x y => ∀ q, f64Fmt.val x = some q → Comfortable q ts → c * siRoundings ts ≤ 2 ^ 30 →
          ∃ v, f64Fmt.val y = some v ∧ |v - q * siSize ts| ≤ (c * siRoundings ts : Nat) / 2 ^ 52 * |q * siSize ts|) xs r := by
  let := softPrims P; let := softText T
  -- one way to take the words for units is enough
  suffices H : ∃ (nums ws : List Str) (xs : List Fl) (ts : List SiTerm),
          (if s.isFloat then ∃ num, nums = [num] ∧ Words text (num :: ws)
            else ∃ pre inside post, text = pre ++ '(' :: (inside ++ ')' :: post) ∧ Words inside nums ∧ Words post ws) ∧
          List.Forall₂ (fun w x => T.parseF .f64 w = some x) nums xs ∧ List.Forall₂ (fun w t => SiTerm.WrittenAs t w) ws ts ∧
          target.vec = siBaseFields.map (siDim ts) ∧
          List.Forall₂ (fun x y => ∀ q, f64Fmt.val x = some q → Comfortable q ts → c * siRoundings ts ≤ 2 ^ 30 →
            ∃ v, f64Fmt.val y = some v ∧
              |v - q * siSize ts| ≤ (c * siRoundings ts : Nat) / 2 ^ 52 * |q * siSize ts|) xs r by
    obtain ⟨nums, ws, xs, ts, a1, a2, a3, a4, a5⟩ := H
    refine ⟨nums, ws, xs, a1, a2, ⟨ts, a3⟩, fun ts' a3' => ?_⟩
    obtain ⟨m1, m2⟩ := C64_one_meaning _ _ _ a3 a3'
    obtain ⟨m3, m4⟩ := same_terms a3 a3'
    refine ⟨a4.trans (List.map_congr_left fun k _ => m2 k), a5.imp fun x y hxy q hq hc hn => ?_⟩
    obtain ⟨v, v1, v2⟩ := hxy q hq (hc.of_sizes m3.symm) (by rw [m4]; exact hn)
    exact ⟨v, v1, by rw [← m4, ← m1]; exact v2⟩
  have hterms : ∀ U ∈ defs.units, ∀ sym, U.symbol = some sym → ∃ r ∈ siUnits, ∃ pre sym', r.symbol = some sym' ∧ sym = (siPrefix? pre).symbol ++ sym' ∧
      (∀ k, U.dims.expo k = r.dim.of k) ∧ ∀ e, Holds (U.mag.intoF64 P.lib) (c * 17) (SiTerm.unit ⟨r, pre, e⟩) := by
    intro U hU sym hsym
    obtain ⟨r, hr, pre, e1, e2, e3⟩ := F.units U hU
    rcases e3 with e3 | e3
    · rw [hsym] at e3; cases e3
    · rw [hsym] at e3
      obtain ⟨sym', hsym', e⟩ := Option.map_eq_some_iff.1 e3.symm
      exact ⟨r, hr, pre, sym', hsym', e.symm, e1, fun _ => e2.1⟩
  cases hf : s.isFloat with
  | true =>
    obtain ⟨num, ws, hw, x, hx, us, g1, g2, rfl⟩ := (C28_float_iff Prefix.factor t defs F.run literals s hf target canonical text
      _ run (by simp) r).1 rfl
    obtain ⟨ts, k1, k2, k3⟩ := terms_of_units (V := fun U t => Holds (U.mag.intoF64 P.lib) (c * 17) t.unit) hterms g1
    refine ⟨[num], ws, [x], ts, ?_, .cons (hs ▸ hx) .nil, k1, ?_, .cons ?_ .nil⟩
    · exact ⟨num, rfl, hw⟩
    · rw [← F.base]
      exact g2.trans (List.map_congr_left fun k _ => k2 k)
    · intro q hq hc hn
      have := number_holds hc1 P T hpow k3 hq hc hn
      rw [hs]
      exact this
  | false =>
    obtain ⟨pre, inside, post, c1, _, _, _, nums, hnums, hlen, xs, hxs, ws, hws, us, g1, g2, rfl⟩ :=
      (C30_vector_iff Prefix.factor t defs F.run literals s hf target canonical text _ run (by simp) r).1 rfl
    obtain ⟨ts, k1, k2, k3⟩ := terms_of_units (V := fun U t => Holds (U.mag.intoF64 P.lib) (c * 17) t.unit) hterms g1
    refine ⟨nums, ws, xs, ts, ⟨pre, inside, post, c1, hnums, hws⟩, hs ▸ hxs, k1, ?_, ?_⟩
    · rw [← F.base]
      exact g2.trans (List.map_congr_left fun k _ => k2 k)
    · rw [List.forall₂_map_right_iff, List.forall₂_same]
      intro x _ q hq hc hn
      have := number_holds hc1 P T hpow k3 hq hc hn
      rw [hs]
      obtain ⟨v, hv, h⟩ := this
      refine ⟨v, ?_, h⟩
      rw [← hv, Fmt.mul_comm f64Fmt x _ (FloatTy.fmt_inf .f64)]
      rfl
end

/-- **C64.** In the generated code of src/si.rs, with and without feature `std`: whenever a text is deserialised as a quantity of double-precision
storage (`f64`, `DVec2`, `DVec3`), it consists of numbers (one; for vectors one per component, in parentheses) and words that are SI unit symbols with
prefixes and powers; the requested dimension is the one the SI table gives for these; and every stored number is the number in the text times the exact size of
the units by the SI table (whichever way the words are taken for units: by `C64_one_meaning` it does not matter), up to a relative error of `(Σ (18 |power| + 2) + 1) × 2^-52` (twice that without `std`), provided nothing comes near
overflow or underflow. -/
theorem C64_si (std : Bool) (powf : Fl → Fl → Fl) (P : PlatformFns) (hP : P.lib = buildLib std powf) (T : FloatText) :
    letI := magOpsInt P.lib; letI := softPrims P; letI := softText T
    ∃ tokens defs, lex siLines = some tokens ∧ unitSystem (E := Int) Number.magnitude Prefix.factor tokens = .done (defs, []) ∧
      ∀ (s : Storage) (target : DimVal Int) (text : Str) (r : Raw Fl), s.base = .f64 → deserializeStr Magnitude defs s target text = some (.ok r) →
        ∃ (nums ws : List Str) (xs : List Fl),
          (if s.isFloat then ∃ num, nums = [num] ∧ Words text (num :: ws)
            else ∃ pre inside post, text = pre ++ '(' :: (inside ++ ')' :: post) ∧ Words inside nums ∧ Words post ws) ∧
          List.Forall₂ (fun w x => T.parseF .f64 w = some x) nums xs ∧ (∃ ts, List.Forall₂ (fun w t => SiTerm.WrittenAs t w) ws ts) ∧
          ∀ ts, List.Forall₂ (fun w t => SiTerm.WrittenAs t w) ws ts →
            target.vec = siBaseFields.map (siDim ts) ∧
            List.Forall₂ (fun x y => ∀ q, f64Fmt.val x = some q → Comfortable q ts → (if std then 1 else 2) * siRoundings ts ≤ 2 ^ 30 →
              ∃ v, f64Fmt.val y = some v ∧
                |v - q * siSize ts| ≤ ((if std then 1 else 2) * siRoundings ts : Nat) / 2 ^ 52 * |q * siSize ts|) xs r := by
  have sh := si_holds std powf
  have ci := @C36_int Magnitude (magOpsInt P.lib) Number.magnitude Prefix.factor
  have hpow := powHolds_int std powf
  rw [← hP] at sh hpow
  let := magOpsInt P.lib; let := softPrims P; let := softText T
  obtain ⟨t, defs, F⟩ := si_facts ci sh
  obtain ⟨tokens, h1, h2⟩ := F.text
  exact ⟨tokens, defs, h1, h2, fun s target text r hs run =>
    si_reading P T (by cases std <;> decide) hpow F (C18_literals_int _) s target (fun _ _ => trivial) text r hs run⟩

/-! ### Every such text is read -/

/-- The prefixes of the statements of src/si.rs. -/
def siPrefixCheck (rational : Bool) : Bool :=
  match lex siLines with
  | none => false
  | some toks => match parseSystem rational toks with
    | none => false
    | some s => s.units.all fun u => !siPrefixed.contains u.name || Prefix.all.all fun p => u.prefixes.contains p || decide (u.name = str!"gram" ∧ p = .kilo)

set_option maxRecDepth 1000000 in
theorem siPrefixCheck_both : ∀ rational, siPrefixCheck rational = true := by decide +kernel

theorem prefix_mem_all (p : Prefix) : p ∈ Prefix.all := by cases p <;> decide

set_option maxRecDepth 10000 in
theorem siUnits_kilogram : (⟨str!"kilogram", some (str!"kg"), 1, ⟨0, 1, 0, 0, 0, 0, 0⟩⟩ : SiUnit) ∈ siUnits ∧
    (⟨str!"gram", some (str!"g"), 1 / 1000, ⟨0, 1, 0, 0, 0, 0, 0⟩⟩ : SiUnit) ∈ siUnits :=
  ⟨List.mem_of_find?_eq_some (p := fun r => decide (r.name = str!"kilogram")) (by rfl),
    List.mem_of_find?_eq_some (p := fun r => decide (r.name = str!"gram")) (by rfl)⟩

/-- Every declared symbol is the symbol of a unit. -/
theorem si_declared {E M : Type} [Exponent E] [LawfulExponent E] [ReadExponent E] [MagOps E M] {mag : Number → M} {factor : Prefix → M} {Value : Int → ℚ → M → Prop}
    (faithful : SiFaithful E M mag factor Value) {tokens : List Tok} {defs : Defs E M} (h1 : lex siLines = some tokens)
    (h2 : unitSystem (E := E) mag factor tokens = .done (defs, [])) (t : SiTerm) (hr : t.row ∈ siUnits) (hd : t.Declared) {sym : Str}
    (hs : t.row.symbol = some sym) :
    ∃ U ∈ defs.units, U.symbol = some ((siPrefix? t.pre).symbol ++ sym) ∧ ∀ k, U.dims.expo k = t.row.dim.of k := by
  obtain ⟨tokens', s, defs', g1, g2, g3, -, -, g6, g7⟩ := faithful
  rw [h1, Option.some.injEq] at g1
  subst g1
  have e : defs = defs' := by
    rw [h2] at g3
    simpa using g3
  subst e
  have hn := siPrefixCheck_both (ReadExponent.rational E)
  unfold siPrefixCheck at hn
  rw [h1] at hn
  simp only [g2, List.all_eq_true, Bool.or_eq_true, Bool.not_eq_true', List.contains_eq_mem, decide_eq_false_iff_not, decide_eq_true_eq] at hn
  have find : ∀ row ∈ siUnits, ∀ sym, row.symbol = some sym → ∀ pre : Option Prefix, (∀ p, pre = some p → row.name ∈ siPrefixed ∧ ¬ (row.name = str!"gram" ∧ p = .kilo)) →
      ∃ U ∈ defs.units, U.symbol = some ((siPrefix? pre).symbol ++ sym) ∧ ∀ k, U.dims.expo k = row.dim.of k := by
    intro row hrow sym hs pre hp
    obtain ⟨u, hu, hun⟩ := g7 row hrow
    obtain ⟨r, hr, hur, hx⟩ := g6 u hu
    obtain rfl := siUnits_names r hr row hrow (hur.symm.trans hun)
    have hpre : pre ∈ none :: u.prefixes.map some := by
      cases pre with
      | none => exact List.mem_cons_self
      | some p =>
        obtain ⟨h1, h2⟩ := hp p rfl
        refine List.mem_cons_of_mem _ (List.mem_map.2 ⟨p, ?_, rfl⟩)
        rcases hn u hu with h | h
        · exact absurd (hun ▸ h1) h
        · rcases h p (prefix_mem_all p) with h | h
          · exact h
          · exact absurd (hun ▸ h) h2
    obtain ⟨U, hU, -, e2, -, e4, -⟩ := hx pre hpre u.name List.mem_cons_self
    refine ⟨U, hU, ?_, e2⟩
    rw [e4 rfl, hs]
    rfl
  by_cases hg : t.row.name = str!"gram" ∧ t.pre = some .kilo
  · have hrow := siUnits_names _ hr _ siUnits_kilogram.2 hg.1
    rw [hrow] at hs
    obtain ⟨U, hU, u1, u2⟩ := find _ siUnits_kilogram.1 _ rfl none (by simp)
    refine ⟨U, hU, ?_, ?_⟩
    · rw [u1, hg.2, ← Option.some.inj hs]; rfl
    · rw [hrow]; exact u2
  · refine find _ hr _ hs _ fun p hp => ⟨?_, fun h => hg ⟨h.1, hp.trans (congrArg some h.2)⟩⟩
    rcases hd with hd | hd
    · rw [hd] at hp; cases hp
    · exact hd

section
variable {E : Type} [Exponent E] [LawfulExponent E] [FieldOps E] [LawfulFieldOps E] [TotalFields E] [WrittenExponent E] [ReadExponent E] [MagOps E Magnitude]

/-- What is read, for any kind of exponents. -/
theorem si_reads (P : PlatformFns) (T : FloatText) {std : Bool} {t : UnresolvedTemplates E Magnitude}
    {defs : Defs E Magnitude} {Value : Int → ℚ → Magnitude → Prop} (sh : SiFaithful E Magnitude Number.magnitude Prefix.factor Value)
    (F : SiFacts Number.magnitude Prefix.factor (fun k q m => ∃ x, f64Fmt.val (m.intoF64 P.lib) = some x ∧
      |x - 10 ^ k * q| ≤ (if std then 17 else 34) / 2 ^ 52 * |10 ^ k * q|) t defs)
    (literals : (UnresolvedTemplates.expand (MagOps.one E) Prefix.factor t).LitExponents (WrittenExponent.Ok : E → Prop))
    (s : Storage) (target : DimVal E) (canonical : target.Canonical) (text : Str) (nums ws : List Str) (xs : List Fl) (ts : List SiTerm)
    (hw : if s.isFloat then ∃ num, nums = [num] ∧ Words text (num :: ws)
      else ∃ inside post, text = '(' :: (inside ++ ')' :: post) ∧ ')' ∉ inside ∧ Words inside nums ∧ nums.length = s.numDims ∧ Words post ws)
    (hx : List.Forall₂ (fun w x => T.parseF s.base w = some x) nums xs) (hts : List.Forall₂ (fun w t => SiTerm.WrittenAs t w) ws ts)
    (hdec : ∀ t ∈ ts, t.Declared) (hdim : target.vec = siBaseFields.map (siDim ts)) (hlen : text.length < 2 ^ 29) :
    letI := softPrims P; letI := softText T
    ∃ r : Raw Fl, deserializeStr Magnitude defs s target text = some (.ok r) := by
  let := softPrims P; let := softText T
  obtain ⟨tokens, h1, h2⟩ := F.text
  have denominator : ∀ U ∈ defs.units, ∀ k, ∃ z : Int, U.dims.expo k * (1 : Nat) = z := by
    intro V hV k
    obtain ⟨r, hr, pre, e1, _, _⟩ := F.units V hV
    exact ⟨r.dim.of k, by rw [e1 k, Nat.cast_one, mul_one]⟩
  have distinct : defs.baseDimensions.Nodup := by rw [F.base]; decide
  have finite : ∀ U ∈ defs.units, TextPrims.finite Magnitude (Prims.into .f64 U.mag : Fl) = true := by
    intro U hU
    obtain ⟨r, hr, pre, _, e2, _⟩ := F.units U hU
    exact text_finite T (si_storable hr e2).1
  have bound : ∀ U ∈ defs.units, ∀ k, |U.dims.expo k| ≤ (4 : Nat) := by
    intro V hV k
    obtain ⟨r, hr, pre, e1, _, _⟩ := F.units V hV
    rw [e1 k]
    exact_mod_cast SiExps.of_le (by norm_num) (siUnits_range r hr).2 k
  have hus : ∃ us : UnitPowers E Magnitude, NamesUnits defs ws us ∧ ∀ k, us.expo k = siDim ts k := by
    clear hdim hw hx
    induction hts with
    | nil => exact ⟨[], .nil, fun _ => rfl⟩
    | @cons w t ws ts hwt _ ih =>
      obtain ⟨us, i1, i2⟩ := ih fun t ht => hdec t (List.mem_cons_of_mem _ ht)
      obtain ⟨hr, sym, hs, hword⟩ := hwt
      obtain ⟨U, hU, u1, u2⟩ := si_declared sh h1 h2 t hr (hdec t List.mem_cons_self) hs
      refine ⟨(U, t.power) :: us, .cons ⟨hU, _, u1, hword⟩ i1, fun k => ?_⟩
      have := i2 k
      simp only [UnitPowers.expo, siDim] at this
      simp only [UnitPowers.expo, siDim, List.map_cons, List.sum_cons, this, u2]
  obtain ⟨us, n1, n2⟩ := hus
  have hd : HasDimension defs us target := by
    rw [HasDimension, hdim, F.base]
    exact List.map_congr_left fun k _ => (n2 k).symm
  obtain ⟨o, ho⟩ := C28_compiles (K := Fl) (M := Magnitude) Prefix.factor t defs F.run literals distinct finite s target text
  cases hs : s.isFloat with
  | true =>
    rw [hs] at hw
    obtain ⟨num, rfl, hw⟩ := hw
    cases hx with
    | @cons _ x _ xs hx hxs =>
      cases hxs
      have hn := words_length hw
      have np := C28_no_panic Prefix.factor t defs F.run literals s hs target text o ho 4 bound 1 one_pos (by norm_num)
          denominator _ hw (by omega)
      exact ⟨_, ho.trans (congrArg some ((C28_float_iff Prefix.factor t defs F.run literals s hs target canonical text
        o ho np _).2 ⟨num, ws, hw, x, hx, us, n1, hd, rfl⟩))⟩
  | false =>
    rw [hs] at hw
    obtain ⟨inside, post, rfl, c1, c2, c3, c4⟩ := hw
    have np := C30_no_panic Prefix.factor t defs F.run literals s hs target _ o ho 4 bound 1 one_pos (by norm_num)
        denominator (by omega)
    exact ⟨_, ho.trans (congrArg some ((C30_vector_iff Prefix.factor t defs F.run literals s hs target canonical _
      o ho np _).2 ⟨[], inside, post, rfl, by simp, by simp, c1, nums, c2, c3, xs, hx, ws, c4, us, n1, hd, rfl⟩))⟩
end

/-- **C64.** In the generated code of src/si.rs, with and without feature `std`: every text that is a number followed by declared SI unit symbols with powers is
read as a quantity of the dimension the SI table gives for these, and likewise for vectors with the numbers in parentheses (texts longer than 2^29
characters aside); what is read, is said by `C64_si`. -/
theorem C64_si_reads (std : Bool) (powf : Fl → Fl → Fl) (P : PlatformFns) (hP : P.lib = buildLib std powf) (T : FloatText) :
    letI := magOpsInt P.lib; letI := softPrims P; letI := softText T
    ∃ tokens defs, lex siLines = some tokens ∧ unitSystem (E := Int) Number.magnitude Prefix.factor tokens = .done (defs, []) ∧
      ∀ (s : Storage) (target : DimVal Int) (text : Str) (nums ws : List Str) (xs : List Fl) (ts : List SiTerm),
        (if s.isFloat then ∃ num, nums = [num] ∧ Words text (num :: ws)
          else ∃ inside post, text = '(' :: (inside ++ ')' :: post) ∧ ')' ∉ inside ∧ Words inside nums ∧ nums.length = s.numDims ∧ Words post ws) →
        List.Forall₂ (fun w x => T.parseF s.base w = some x) nums xs → List.Forall₂ (fun w t => SiTerm.WrittenAs t w) ws ts →
        (∀ t ∈ ts, t.Declared) → target.vec = siBaseFields.map (siDim ts) → text.length < 2 ^ 29 →
        ∃ r : Raw Fl, deserializeStr Magnitude defs s target text = some (.ok r) := by
  have sh := C46_si_float std powf
  have ci := @C36_int Magnitude (magOpsInt P.lib) Number.magnitude Prefix.factor
  rw [← hP] at sh
  let := magOpsInt P.lib; let := softPrims P; let := softText T
  obtain ⟨t, defs, F⟩ := si_facts ci sh
  obtain ⟨tokens, h1, h2⟩ := F.text
  exact ⟨tokens, defs, h1, h2, fun s target text nums ws xs ts hw hx hts hdec hdim hlen =>
    si_reads P T sh F (C18_literals_int _) s target (fun _ _ => trivial) text nums ws xs ts hw hx hts hdec hdim hlen⟩

/-! ### A concrete text -/

/-- `km h^-1` by the table. -/
def C64.kmh : List SiTerm :=
  [⟨⟨str!"meter", some (str!"m"), 1, ⟨1, 0, 0, 0, 0, 0, 0⟩⟩, some .kilo, 1⟩, ⟨⟨str!"hour", some (str!"h"), 3600, ⟨0, 0, 1, 0, 0, 0, 0⟩⟩, none, -1⟩]

theorem C64.kmh_written : List.Forall₂ (fun w t => SiTerm.WrittenAs t w) [str!"km", str!"h^-1"] C64.kmh := by
  refine .cons ⟨List.mem_of_find?_eq_some (p := fun r => decide (r.name = str!"meter")) (by rfl), str!"m", rfl, unitWord_iff.1 (by decide +kernel)⟩
    (.cons ⟨List.mem_of_find?_eq_some (p := fun r => decide (r.name = str!"hour")) (by rfl), str!"h", rfl, unitWord_iff.1 (by decide +kernel)⟩ .nil)

theorem C64.kmh_comfortable : Comfortable 36 C64.kmh := by
  refine ⟨by decide +kernel, by decide +kernel, fun n => ?_, by decide +kernel⟩
  rcases n with _ | _ | n
  · decide +kernel
  · decide +kernel
  · rw [List.take_of_length_le (by simp [C64.kmh])]; decide +kernel

-- In the code generated from src/si.rs, "36 km h^-1" is read as a velocity of 10 m/s, up to a relative error of 41/2^52, and read as a length it
-- is refused.
example (P : PlatformFns) (powf : Fl → Fl → Fl) (hP : P.lib = buildLib true powf) :
    letI := magOpsInt P.lib; letI := softPrims P; letI := softText coreText
    ∃ (defs : Defs Int Magnitude) (y : Fl) (v : ℚ),
      deserializeStr Magnitude defs .f64 ([1, -1, 0, 0, 0, 0, 0] : DimVal Int) (str!"36 km h^-1") = some (.ok [y]) ∧
      f64Fmt.val y = some v ∧ |v - 10| ≤ 41 / 2 ^ 52 * 10 ∧
      ∀ r : Raw Fl, deserializeStr Magnitude defs .f64 ([1, 0, 0, 0, 0, 0, 0] : DimVal Int) (str!"36 km h^-1") ≠ some (.ok r) := by
  let := magOpsInt P.lib; let := softPrims P; let := softText coreText
  obtain ⟨tokens, defs, h1, h2, h⟩ := C64_si true powf P hP coreText
  obtain ⟨tokens', defs', h1', h2', h'⟩ := C64_si_reads true powf P hP coreText
  obtain rfl : tokens = tokens' := Option.some.inj (h1.symm.trans h1')
  obtain rfl : defs = defs' := by
    rw [h2] at h2'
    simpa using h2'
  have hw : Words (str!"36 km h^-1") [str!"36", str!"km", str!"h^-1"] := splitWs_iff.1 (by decide +kernel)
  have hx : ∃ x, coreText.parseF .f64 (str!"36") = some x ∧ f64Fmt.val x = some 36 := by
    have hf : (coreText.parseF .f64 (str!"36")).any (fun x => decide (f64Fmt.val x = some 36)) = true := by decide +kernel
    cases hp : coreText.parseF .f64 (str!"36") with
    | none => rw [hp] at hf; simp at hf
    | some x => rw [hp] at hf; exact ⟨x, rfl, by simpa using hf⟩
  obtain ⟨x, hx, hv⟩ := hx
  have key : ∀ target r, deserializeStr Magnitude defs .f64 target (str!"36 km h^-1") = some (.ok r) →
      target.vec = siBaseFields.map (siDim C64.kmh) ∧ ∃ y v, r = [y] ∧ f64Fmt.val y = some v ∧ |v - 10| ≤ 41 / 2 ^ 52 * 10 := by
    intro target r hr
    obtain ⟨nums, ws, xs, k1, k2, -, k3⟩ := h .f64 target _ r rfl hr
    obtain ⟨num, rfl, k1⟩ := k1
    have e := (splitWs_iff.2 k1).symm.trans (splitWs_iff.2 hw)
    simp only [List.cons.injEq] at e
    obtain ⟨rfl, rfl⟩ := e
    obtain ⟨k3, k4⟩ := k3 _ C64.kmh_written
    refine ⟨k3, ?_⟩
    cases k2 with
    | cons a1 a2 =>
      cases a2
      cases k4 with
      | cons b1 b2 =>
        cases b2
        rw [hx] at a1
        cases a1
        obtain ⟨v, v1, v2⟩ := b1 36 hv C64.kmh_comfortable (by decide)
        refine ⟨_, v, rfl, v1, ?_⟩
        have : siSize C64.kmh = 1000 / 3600 := by decide +kernel
        rw [this, show siRoundings C64.kmh = 41 by decide] at v2
        norm_num at v2 ⊢
        exact v2
  obtain ⟨r, hr⟩ := h' .f64 ([1, -1, 0, 0, 0, 0, 0] : DimVal Int) _ [str!"36"] _ [x] C64.kmh ⟨_, rfl, hw⟩ (.cons hx .nil) C64.kmh_written
    (by
      intro t ht
      simp only [C64.kmh, List.mem_cons, List.not_mem_nil, or_false] at ht
      rcases ht with rfl | rfl
      · exact .inr (by decide)
      · exact .inl rfl)
    (by decide +kernel) (by decide)
  obtain ⟨-, y, v, rfl, v1, v2⟩ := key _ _ hr
  refine ⟨defs, y, v, hr, v1, v2, fun r hr => ?_⟩
  have := (key _ _ hr).1
  revert this
  decide +kernel

end Diman
