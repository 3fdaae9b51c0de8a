import Verif.Spec.SiTable
import Verif.Props.C36
/-! The check of src/si.rs against the SI tables, and what its success means. -/
namespace Diman

/-- A row's exponents as a dimension. -/
def SiExps.dims {E : Type} [Exponent E] (e : SiExps) : Dims E := e.table.map fun p => (p.1, Exponent.ofInt p.2)

theorem SiExps.expo_dims {E : Type} [Exponent E] [LawfulExponent E] (e : SiExps) (k : Str) : Dims.expo (e.dims : Dims E) k = (e.of k : ℚ) := by
  unfold SiExps.dims SiExps.of
  induction e.table with
  | nil => rfl
  | cons p l ih =>
    rw [List.find?_cons]
    unfold Dims.expo at ih ⊢
    rw [List.map_cons]
    unfold Dims.get
    by_cases h : p.1 = k
    · rw [if_pos h]
      simp only [h, decide_true]
      exact LawfulExponent.ofInt_val p.2
    · rw [if_neg h]
      simp only [h, decide_false]
      exact ih

section
variable {E M : Type} [Exponent E] [ReadExponent E] [MagOps E M]

/-- One generated unit against its row. -/
def siUnitOk (ok : Int → ℚ → M → Bool) (env : FastEnv E M) (u : UnitTemplate E M) (r : SiUnit) (pre : Option Prefix) (al : Option Str) : Bool :=
  match env.get (strCode (u.formatName pre al)) with
  | some (_, dm) => sameDims dm.dims r.dim.dims && ok (siPrefix? pre).power r.value dm.mag
  | none => false

/-- Everything against the tables. -/
def siTableOk (ok : Int → ℚ → M → Bool) (env : FastEnv E M) (t : UnresolvedTemplates E M) : Bool :=
  (t.dimensions.all fun d => match siDimensions.find? (fun r => decide (d.name = r.1)) with
    | some r => match env.get (strCode d.name) with
      | some (_, dm) => sameDims dm.dims r.2.dims
      | none => false
    | none => false) &&
  (siDimensions.all fun r => t.dimensions.any fun d => decide (d.name = r.1)) &&
  (t.units.all fun u => match siUnits.find? (fun r => decide (u.name = r.name)) with
    | some r => decide (u.symbol = r.symbol) &&
        (none :: u.prefixes.map some).all fun pre => (none :: u.aliases.map some).all fun al => siUnitOk ok env u r pre al
    | none => false) &&
  (siUnits.all fun r => t.units.any fun u => decide (u.name = r.name))

def siTableCheck (mag : Number → M) (factor : Prefix → M) (ok : Int → ℚ → M → Bool) : Bool :=
  match lex siLines with
  | none => false
  | some toks => match parseSystem (ReadExponent.rational E) toks with
    | none => false
    | some t => match readTemplates (E := E) mag t with
      | none => false
      | some t' => match fastCheck factor t' with
        | none => false
        | some env => siTableOk ok env t'

theorem siPrefix_name (p : Prefix) : (siPrefix p).name = p.name := by cases p <;> rfl
theorem siPrefix_symbol (p : Prefix) : (siPrefix p).symbol = p.short := by cases p <;> rfl

omit [Exponent E] [ReadExponent E] [MagOps E M] in
theorem formatName_si (u : UnitTemplate E M) (pre : Option Prefix) (al : Option Str) :
    u.formatName pre al = (siPrefix? pre).name ++ al.getD u.name := by
  cases pre with
  | none => cases al <;> rfl
  | some p => cases al <;> simp [UnitTemplate.formatName, siPrefix?, siPrefix_name]

variable [LawfulExponent E]

theorem si_faithful_of_check {mag : Number → M} {factor : Prefix → M} {ok : Int → ℚ → M → Bool}
    (h : siTableCheck (E := E) mag factor ok = true) : SiFaithful E M mag factor (fun k q m => ok k q m = true) := by
  unfold siTableCheck at h
  split at h
  · simp at h
  · rename_i toks htoks
    split at h
    · simp at h
    · rename_i t ht
      split at h
      · simp at h
      · rename_i t' ht'
        split at h
        · simp at h
        · rename_i env henv
          obtain ⟨defs, res, hrun, hacc, hagree, -⟩ := fastCheck_sound henv
          unfold siTableOk at h
          simp only [Bool.and_eq_true] at h
          obtain ⟨⟨⟨h1, h2⟩, h3⟩, h4⟩ := h
          have hunits := readTemplates_units ht'
          have hdimsIn : ∀ d, d ∈ (UnresolvedTemplates.expand (MagOps.one E) factor t').dimensions ↔ d ∈ t'.dimensions := fun d => Iff.rfl
          refine ⟨toks, t, defs, htoks, ht, ?_, ?_, ?_, ?_, ?_⟩
          · unfold unitSystem; simp only [ht, ht', hrun]
          · intro D hD
            obtain ⟨d, hd, dm, hg, rfl⟩ := hacc.dim_from hD
            have := List.all_eq_true.1 h1 d ((hdimsIn d).1 hd)
            split at this
            · rename_i r hr
              rw [hagree, hg] at this
              simp only [Option.map_some] at this
              refine ⟨r, List.mem_of_find?_eq_some hr, (by have := List.find?_some hr; exact of_decide_eq_true this), fun k => ?_⟩
              rw [sameDims_expo this k, SiExps.expo_dims]
            · simp at this
          · intro r hr
            have := List.all_eq_true.1 h2 r hr
            rw [List.any_eq_true] at this
            obtain ⟨d, hd, e⟩ := this
            obtain ⟨dm, _, _, hD⟩ := hacc.dim_val ((hdimsIn d).2 hd)
            exact ⟨_, hD, of_decide_eq_true e⟩
          · intro u hu
            obtain ⟨v, hv, hread⟩ := mapM_some_mem_left hunits hu
            obtain ⟨dfn, _, rfl⟩ := Option.map_eq_some_iff.1 hread
            set w : UnitTemplate E M := ⟨u.name, u.symbol, u.aliases, u.prefixes, u.annotation, dfn⟩ with hw
            have hrow := List.all_eq_true.1 h3 w hv
            split at hrow
            · rename_i r hr
              rw [Bool.and_eq_true, decide_eq_true_eq] at hrow
              obtain ⟨hsym, hrow⟩ := hrow
              have hname : u.name = r.name := by
                have := List.find?_some hr
                exact of_decide_eq_true this
              refine ⟨r, List.mem_of_find?_eq_some hr, hname, ?_⟩
              intro pre hpre base hbase
              have hsymU : u.symbol = r.symbol := hsym
              -- the entry
              have key : ∀ al ∈ none :: u.aliases.map some, ∃ U ∈ defs.units, U.name = w.formatName pre al ∧ U.symbol = w.formatSymbol pre al ∧
                  (∀ k, U.dims.expo k = r.dim.of k) ∧ ok (siPrefix? pre).power r.value U.mag = true := by
                intro al hal
                have hx : w.expandOne (MagOps.one E) factor pre al ∈ (UnresolvedTemplates.expand (MagOps.one E) factor t').units := by
                  simp only [UnresolvedTemplates.expand, List.mem_flatMap]
                  refine ⟨w, hv, ?_⟩
                  unfold UnitTemplate.expand
                  simp only [List.mem_flatMap]
                  refine ⟨pre, ?_, ?_⟩
                  · simp only [List.mem_cons, List.mem_append, List.not_mem_nil, or_false] at hpre ⊢
                    exact hpre.symm
                  · refine List.mem_map_of_mem ?_
                    simp only [List.mem_cons, List.mem_append, List.not_mem_nil, or_false] at hal ⊢
                    exact hal.symm
                obtain ⟨dm, gx, _, hU⟩ := hacc.unit_val hx
                have hc := List.all_eq_true.1 (List.all_eq_true.1 hrow pre hpre) al hal
                unfold siUnitOk at hc
                have hgx : res.get (w.formatName pre al) = some ⟨.ofUnit (w.expandOne (MagOps.one E) factor pre al), dm⟩ := gx
                rw [hagree, hgx] at hc
                simp only [Option.map_some, Bool.and_eq_true] at hc
                refine ⟨_, hU, rfl, rfl, fun k => ?_, hc.2⟩
                rw [← SiExps.expo_dims (E := E), ← sameDims_expo hc.1 k]; rfl
              by_cases hb : base = u.name
              · obtain ⟨U, hU, hn, hs, hd, hok⟩ := key none (by simp)
                refine ⟨U, hU, ?_, hd, hok, fun _ => ?_, fun h => absurd hb h⟩
                · rw [hn, hb, formatName_si]; rfl
                · rw [hs, ← hsymU]
                  cases pre with
                  | none =>
                    show u.symbol = _
                    cases u.symbol <;> rfl
                  | some p =>
                    show u.symbol.map _ = _
                    simp only [siPrefix?, siPrefix_symbol]
              · have hal : base ∈ u.aliases := (List.mem_cons.1 hbase).resolve_left hb
                obtain ⟨U, hU, hn, hs, hd, hok⟩ := key (some base) (by simp [hal])
                refine ⟨U, hU, ?_, hd, hok, fun h => absurd h hb, fun _ => ?_⟩
                · rw [hn, formatName_si]; rfl
                · rw [hs]; rfl
            · simp at hrow
          · intro r hr
            have := List.all_eq_true.1 h4 r hr
            rw [List.any_eq_true] at this
            obtain ⟨v, hv, e⟩ := this
            obtain ⟨u, hu, hread⟩ := mapM_some_mem_right hunits hv
            obtain ⟨dfn, _, rfl⟩ := Option.map_eq_some_iff.1 hread
            exact ⟨u, hu, of_decide_eq_true e⟩

end
end Diman
