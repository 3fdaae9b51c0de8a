import Verif.Props.C44
import Verif.Model.Types
/-!
# C16 metric_prefixes generates all 16 SI prefixes from atto to exa except the skipped ones, with the right factor and symbol
-/
namespace Diman

/-- The SI prefixes from atto to exa (SI brochure): name, symbol, power of ten. -/
def siPrefixTable : List (Str × Str × Int) :=
  [(str!"exa", str!"E", 18), (str!"peta", str!"P", 15), (str!"tera", str!"T", 12), (str!"giga", str!"G", 9),
   (str!"mega", str!"M", 6), (str!"kilo", str!"k", 3), (str!"hecto", str!"h", 2), (str!"deca", str!"da", 1),
   (str!"deci", str!"d", -1), (str!"centi", str!"c", -2), (str!"milli", str!"m", -3), (str!"micro", str!"μ", -6),
   (str!"nano", str!"n", -9), (str!"pico", str!"p", -12), (str!"femto", str!"f", -15), (str!"atto", str!"a", -18)]

theorem Prefix.mem_all (p : Prefix) : p ∈ Prefix.all := by cases p <;> decide

theorem Prefix.name_inj (p q : Prefix) (h : p.name = q.name) : p = q := by
  have : ∀ p ∈ Prefix.all, ∀ q ∈ Prefix.all, p.name = q.name → p = q := by decide
  exact this p p.mem_all q q.mem_all h

theorem Prefix.short_inj (p q : Prefix) (h : p.short = q.short) : p = q := by
  have : ∀ p ∈ Prefix.all, ∀ q ∈ Prefix.all, p.short = q.short → p = q := by decide
  exact this p p.mem_all q q.mem_all h

/-- **C16.** For every skip list, the attribute yields each prefix exactly once unless it is skipped; in names, the generated
prefixes are the rows of the SI table whose name is not that of a skipped prefix. -/
theorem C16_prefixes (skip : List Prefix) :
    (metricPrefixes skip).Nodup ∧ (∀ p, p ∈ metricPrefixes skip ↔ p ∉ skip) ∧
    ((metricPrefixes skip).map fun p => (p.name, p.short)) =
      ((siPrefixTable.filter fun row => decide (row.1 ∉ skip.map Prefix.name)).map fun row => (row.1, row.2.1)) := by
  have inj := Prefix.name_inj
  refine ⟨?_, fun p => ?_, ?_⟩
  · exact List.Nodup.filter _ (by decide)
  · simp [metricPrefixes, Prefix.mem_all]
  · have h : siPrefixTable = Prefix.all.map fun p => (p.name, p.short, ((siPrefixTable.find? fun r => r.1 = p.name).map (·.2.2)).getD 0) := by
      decide
    rw [h, List.filter_map, List.map_map]
    unfold metricPrefixes
    have : (fun p : Prefix => !skip.contains p) = ((fun row : Str × Str × Int => decide (row.1 ∉ skip.map Prefix.name)) ∘
        fun p => (p.name, p.short, ((siPrefixTable.find? fun r => r.1 = p.name).map (·.2.2)).getD 0)) := by
      funext p
      simp only [Function.comp, List.mem_map, not_exists, not_and]
      rw [Bool.eq_iff_iff]
      simp only [Bool.not_eq_true', decide_eq_true_eq, List.contains_eq_mem, decide_eq_false_iff_not]
      exact ⟨fun hp q hq e => hp (inj q p e ▸ hq), fun hq hp => hq p hp rfl⟩
    rw [this]; rfl

/-- **C16.** Names, symbols and keywords of the 16 prefixes are pairwise distinct. -/
theorem C16_distinct : (Prefix.all.map Prefix.name).Nodup ∧ (Prefix.all.map Prefix.short).Nodup ∧
    (Prefix.all.map Prefix.keyword).Nodup ∧ (∀ p q : Prefix, p.name = q.name → p = q) ∧
    (∀ p q : Prefix, p.short = q.short → p = q) ∧ ∀ p : Prefix, p.keyword = p.name := by
  refine ⟨by decide, by decide, by decide, Prefix.name_inj, Prefix.short_inj, fun p => by cases p <;> rfl⟩

/-- **C16.** Every prefix is a row of the SI table, and its factor, read back from the stored magnitude, is a finite double; no
double is closer to the row's power of ten. -/
theorem C16_factor (std : Bool) (powf) (p : Prefix) : ∃ k : Int, (p.name, p.short, k) ∈ siPrefixTable ∧
    ∃ n, p.factor.intoF64 (buildLib std powf) = .num false n ∧ n < f64Fmt.infBits ∧
      ∀ n', |f64Fmt.mag n - (10 : ℚ) ^ k| ≤ |f64Fmt.mag n' - (10 : ℚ) ^ k| := by
  have hst : Storable (.num false (f64Fmt.round p.literal)) := by
    refine ⟨round_le_inf _ _, Or.inr ?_⟩
    have : ∀ p ∈ Prefix.all, pow2 (-971) ≤ f64Fmt.mag (f64Fmt.round p.literal) := by decide +kernel
    exact this p (Prefix.mem_all p)
  have hpos : 0 < p.literal := by
    have : ∀ p ∈ Prefix.all, 0 < p.literal := by decide +kernel
    exact this p (Prefix.mem_all p)
  have ho : f64Fmt.round p.literal < f64Fmt.infBits := by
    have : ∀ p ∈ Prefix.all, f64Fmt.round p.literal < f64Fmt.infBits := by decide +kernel
    exact this p (Prefix.mem_all p)
  have hk : ∃ k : Int, (p.name, p.short, k) ∈ siPrefixTable ∧ p.literal = (10 : ℚ) ^ k := by
    have row : ∀ k : Int, decide ((p.name, p.short, k) ∈ siPrefixTable) = true → p.literal = (10 : ℚ) ^ k →
        ∃ k : Int, (p.name, p.short, k) ∈ siPrefixTable ∧ p.literal = (10 : ℚ) ^ k :=
      fun k h1 h2 => ⟨k, of_decide_eq_true h1, h2⟩
    cases p
    · exact row 18 (by decide) (by norm_num [Prefix.literal])
    · exact row 15 (by decide) (by norm_num [Prefix.literal])
    · exact row 12 (by decide) (by norm_num [Prefix.literal])
    · exact row 9 (by decide) (by norm_num [Prefix.literal])
    · exact row 6 (by decide) (by norm_num [Prefix.literal])
    · exact row 3 (by decide) (by norm_num [Prefix.literal])
    · exact row 2 (by decide) (by norm_num [Prefix.literal])
    · exact row 1 (by decide) (by norm_num [Prefix.literal])
    · exact row (-1) (by decide) (by norm_num [Prefix.literal])
    · exact row (-2) (by decide) (by norm_num [Prefix.literal])
    · exact row (-3) (by decide) (by norm_num [Prefix.literal])
    · exact row (-6) (by decide) (by norm_num [Prefix.literal])
    · exact row (-9) (by decide) (by norm_num [Prefix.literal])
    · exact row (-12) (by decide) (by norm_num [Prefix.literal])
    · exact row (-15) (by decide) (by norm_num [Prefix.literal])
    · exact row (-18) (by decide) (by norm_num [Prefix.literal])
  obtain ⟨k, hrow, hlit⟩ := hk
  refine ⟨k, hrow, _, C44_storable_roundtrip std powf _ hst, ho, fun n' => ?_⟩
  rw [← hlit]
  exact round_nearest f64Fmt (by decide) hpos ho n'

-- `metric_prefixes(skip: [kilo, milli])` leaves 14 prefixes; the factor of `milli` is the double 0.001
example : (metricPrefixes [.kilo, .milli]).length = 14 ∧ Prefix.milli.factor = ⟨4611686018427388, -62, 1⟩ ∧
    (metricPrefixes []).length = 16 := by decide +kernel

end Diman
