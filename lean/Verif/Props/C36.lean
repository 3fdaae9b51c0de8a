import Verif.Spec.Si
import Verif.Proofs.FastCheck
import Verif.Proofs.Shape
import Verif.Props.C07
/-!
# C36: the SI module is consistent
The input is the text of src/si.rs itself (`Model/SiText.lean`, generated verbatim by tools/si.py), through the lexer, the parser and the
resolver of the model. The kernel runs a one-pass check (`Proofs/FastCheck.lean`) once per exponent type, on the statements without their
numbers; that its success implies acceptance by the code's own algorithm, and that numbers do not matter, are theorems.
-/
set_option linter.unusedSectionVars false
namespace Diman

section
variable {E : Type} [Exponent E] [LawfulExponent E]
open LawfulExponent

theorem Dims.expo_getD (d : Dims E) (k : Str) : d.expo k = val ((Dims.get d k).getD Exponent.zero) := by
  unfold Dims.expo
  cases Dims.get d k with
  | none => exact zero_val.symm
  | some v => rfl

theorem Dims.get_mem_pair {d : Dims E} {k : Str} {v : E} (h : Dims.get d k = some v) : (k, v) ∈ d := by
  induction d with
  | nil => simp [Dims.get] at h
  | cons p d ih =>
    obtain ⟨k', v'⟩ := p
    unfold Dims.get at h
    split at h
    · rename_i hk; subst hk; injection h with h; subst h; simp
    · exact List.mem_cons_of_mem _ (ih h)

theorem sameDims_expo {a b : Dims E} (h : sameDims a b = true) (k : Str) : a.expo k = b.expo k := by
  simp only [sameDims, Bool.and_eq_true, List.all_eq_true, decide_eq_true_eq] at h
  rw [Dims.expo_getD, Dims.expo_getD]
  cases ha : Dims.get a k with
  | some v => have := h.1 (k, v) (Dims.get_mem_pair ha); simp only at this; rw [← this]; rfl
  | none =>
    cases hb : Dims.get b k with
    | none => rfl
    | some v => have := h.2 (k, v) (Dims.get_mem_pair hb); simp only [ha] at this; rw [← this.symm]; rfl
end

/-- The one-pass check on the text of src/si.rs. -/
def siCheck (E : Type) [ReadExponent E] [Exponent E] : Bool :=
  match lex siLines with
  | none => false
  | some toks => match parseSystem (ReadExponent.rational E) toks with
    | none => false
    | some t => match readTemplates (E := E) (fun _ => ()) t with
      | none => false
      | some t' => t.units.all (fun u => u.annotation.isSome) && (fastCheck (fun _ => ()) t').isSome

section
variable {E M : Type} [Exponent E] [LawfulExponent E] [ReadExponent E] [MagOps E M]

theorem mapM_some_mem_left {α β : Type} {f : α → Option β} {l : List α} {l' : List β} (h : l.mapM f = some l') {a : α} (ha : a ∈ l) :
    ∃ b ∈ l', f a = some b := by
  induction l generalizing l' with
  | nil => simp at ha
  | cons x l ih =>
    rw [List.mapM_cons] at h
    simp only [Option.bind_eq_bind, Option.bind_eq_some_iff, Option.pure_def, Option.some.injEq] at h
    obtain ⟨b, hb, bs, hbs, rfl⟩ := h
    rcases List.mem_cons.1 ha with rfl | ha
    · exact ⟨b, by simp, hb⟩
    · obtain ⟨c, hc, e⟩ := ih hbs ha
      exact ⟨c, by simp [hc], e⟩

theorem mapM_some_mem_right {α β : Type} {f : α → Option β} {l : List α} {l' : List β} (h : l.mapM f = some l') {b : β} (hb : b ∈ l') :
    ∃ a ∈ l, f a = some b := by
  induction l generalizing l' with
  | nil => simp at h; subst h; simp at hb
  | cons x l ih =>
    rw [List.mapM_cons] at h
    simp only [Option.bind_eq_bind, Option.bind_eq_some_iff, Option.pure_def, Option.some.injEq] at h
    obtain ⟨c, hc, bs, hbs, rfl⟩ := h
    rcases List.mem_cons.1 hb with rfl | hb
    · exact ⟨x, by simp, hc⟩
    · obtain ⟨a, ha, e⟩ := ih hbs hb
      exact ⟨a, by simp [ha], e⟩

theorem readTemplates_units {mag : Number → M} {t : UnresolvedTemplates ExpSyn Number} {t' : UnresolvedTemplates E M}
    (h : readTemplates (E := E) mag t = some t') :
    t.units.mapM (fun u => (readDefinition mag u.definition).map fun d =>
      ({ name := u.name, symbol := u.symbol, aliases := u.aliases, prefixes := u.prefixes, annotation := u.annotation, definition := d } :
        UnitTemplate E M)) = some t'.units := by
  unfold readTemplates at h
  simp only [Option.bind_eq_bind, Option.bind_eq_some_iff, Option.pure_def, Option.some.injEq] at h
  obtain ⟨a, _, b, hb, c, _, rfl⟩ := h
  exact hb

/-- What the units of an accepted system with exactly matching annotations satisfy. -/
theorem si_consistent_of_check (mag : Number → M) (factor : Prefix → M) (h : siCheck E = true) : SiConsistent E M mag factor := by
  unfold siCheck at h
  split at h
  · simp at h
  · rename_i toks htoks
    split at h
    · simp at h
    · rename_i t ht
      split at h
      · simp at h
      · rename_i tU htU
        rw [Bool.and_eq_true] at h
        obtain ⟨hannAll, h⟩ := h
        obtain ⟨env, henv⟩ := Option.isSome_iff_exists.1 h
        obtain ⟨defsU, resU, hrun, hacc, hagree, hann⟩ := fastCheck_sound henv
        -- with numbers
        rw [readTemplates_shape mag] at htU
        obtain ⟨tM, htM, hsh⟩ := Option.map_eq_some_iff.1 htU
        subst hsh
        have hr := runUnitSystem_shape factor tM
        rw [hrun] at hr
        obtain ⟨⟨defs, ds⟩, hM, hp⟩ := Option.map_eq_some_iff.1 hr.symm
        simp only [Prod.mk.injEq] at hp
        obtain ⟨hp, rfl⟩ := hp
        obtain ⟨res, haccM⟩ := accepted_of_run hM
        have hunits := readTemplates_units htM
        have hUnitShape : ∀ n d, (∃ U ∈ defsU.units, U.name = n ∧ U.dims = d) → ∃ U ∈ defs.units, U.name = n ∧ U.dims = d := by
          rintro n d ⟨U, hU, rfl, rfl⟩
          rw [← hp] at hU
          simp only [Defs.shape, List.mem_map] at hU
          obtain ⟨V, hV, rfl⟩ := hU
          exact ⟨V, hV, rfl, rfl⟩
        have hdims : defsU.dimensions = defs.dimensions := by rw [← hp]; rfl
        refine ⟨toks, t, defs, htoks, ht, ?_, ?_, ?_, haccM.unit_nodup, ?_, ?_⟩
        · unfold unitSystem; simp only [ht, htM, hM]
        · intro u hu
          obtain ⟨a, ha⟩ := Option.isSome_iff_exists.1 (List.all_eq_true.1 hannAll u hu)
          obtain ⟨v, hv, hread⟩ := mapM_some_mem_left hunits hu
          obtain ⟨dfn, _, rfl⟩ := Option.map_eq_some_iff.1 hread
          -- the expanded entries of this statement, without numbers
          set w : UnitTemplate E M := ⟨u.name, u.symbol, u.aliases, u.prefixes, u.annotation, dfn⟩ with hw
          have hwS : w.shape ∈ (UnresolvedTemplates.shape tM).units := List.mem_map_of_mem hv
          have key : ∀ pre ∈ none :: u.prefixes.map some, ∀ al ∈ none :: u.aliases.map some, ∃ ra ri, resU.get a = some ra ∧
              ra.item.kind = .dimension ∧ sameDims ra.dimensions.dims ri = true ∧
              ∃ U ∈ defsU.units, U.name = w.shape.formatName pre al ∧ U.dims = ri := by
            intro pre hpre al hal
            have hx : w.shape.expandOne () (fun _ => ()) pre al ∈
                (UnresolvedTemplates.expand (E := E) (MagOps.one E) (fun _ => ()) tM.shape).units := by
              simp only [UnresolvedTemplates.expand, List.mem_flatMap]
              refine ⟨w.shape, hwS, ?_⟩
              unfold UnitTemplate.expand
              simp only [List.mem_flatMap]
              refine ⟨pre, ?_, ?_⟩
              · simp only [List.mem_cons, List.mem_append, List.not_mem_nil, or_false] at hpre ⊢
                exact hpre.symm
              · refine List.mem_map_of_mem ?_
                simp only [List.mem_cons, List.mem_append, List.not_mem_nil, or_false] at hal ⊢
                exact hal.symm
            obtain ⟨ra, ri, g1, g2, g3, g4⟩ := hann (.ofUnit _) (mem_allItems.2 (.inr (.inl ⟨_, hx, rfl⟩))) a ha
            obtain ⟨dm, gx, _, hU⟩ := hacc.unit_val hx
            have e : (Item.ofUnit (w.shape.expandOne () (fun _ => ()) pre al)).ident =
              (w.shape.expandOne () (fun _ => ()) pre al).name := rfl
            rw [e, gx] at g2
            injection g2 with g2
            subst g2
            exact ⟨ra, dm.dims, g1, g3, g4, _, hU, rfl, rfl⟩
          refine ⟨a, ha, ?_⟩
          obtain ⟨ra, _, g1, g3, _⟩ := key none (by simp) none (by simp)
          have hra := hacc.solution.only a ra g1
          rcases mem_allItems.1 hra.1 with ⟨d, hd, he⟩ | ⟨x, hx, he⟩ | ⟨c, hc, he⟩
          · obtain ⟨dm, gd, _, hD⟩ := hacc.dim_val hd
            have hname : d.name = a := by rw [← hra.2, he]; rfl
            rw [hname, g1] at gd
            injection gd with gd
            rw [hdims] at hD
            refine ⟨_, hD, hname, ?_⟩
            intro pre hpre base hbase
            obtain ⟨al, hal, hb⟩ : ∃ al ∈ none :: u.aliases.map some, base = al.getD u.name := by
              rcases List.mem_cons.1 hbase with rfl | hbase
              · exact ⟨none, by simp, rfl⟩
              · exact ⟨some base, by simp [hbase], rfl⟩
            obtain ⟨ra', ri, g1', _, hs, hU⟩ := key pre hpre al hal
            rw [g1] at g1'
            injection g1' with g1'
            subst g1'
            obtain ⟨U, hU, hn, hd'⟩ := hUnitShape _ _ hU
            refine ⟨U, hU, ?_, ?_⟩
            · rw [hn, hb]
              cases pre <;> cases al <;> rfl
            · intro k
              rw [hd', ← sameDims_expo hs k, gd]
          · rw [he] at g3
            obtain ⟨n, sy, an, df, ag⟩ := x
            cases df <;> simp [Item.kind, Item.ofUnit] at g3
          · rw [he] at g3; simp [Item.kind, Item.ofConstant] at g3
        · intro U hU
          obtain ⟨x, hx, dm, _, rfl⟩ := haccM.unit_from hU
          simp only [UnresolvedTemplates.expand, List.mem_flatMap] at hx
          obtain ⟨w, hw, hx⟩ := hx
          obtain ⟨u, hu, hread⟩ := mapM_some_mem_right hunits hw
          obtain ⟨dfn, _, rfl⟩ := Option.map_eq_some_iff.1 hread
          unfold UnitTemplate.expand at hx
          simp only [List.mem_flatMap, List.mem_map, List.mem_append, List.mem_cons, List.not_mem_nil, or_false] at hx
          obtain ⟨pre, hpre, al, hal, rfl⟩ := hx
          refine ⟨u, hu, pre, ?_, al.getD u.name, ?_, ?_⟩
          · simp only [List.mem_cons, List.mem_map]; exact hpre.symm
          · rcases hal with ⟨a', ha', rfl⟩ | rfl
            · simp [ha']
            · simp
          · cases pre <;> cases al <;> rfl
        · have hs := haccM.symbols
          have hf := (units_of_solution haccM.solution haccM.units)
          -- symbols of the generated units, listed by name order, are a permutation of the statement symbols
          have hnd : (defs.units.map UnitDef.name).Nodup := haccM.unit_nodup
          rw [List.Nodup, List.pairwise_filterMap]
          have hdist : defs.units.Pairwise (fun a b => a.name ≠ b.name) := by
            rw [List.Nodup, List.pairwise_map] at hnd; exact hnd
          refine List.Pairwise.imp_of_mem ?_ hdist
          intro U V hU hV hne s hsU s' hsV hss
          subst hss
          obtain ⟨x, hx, dx, _, rfl⟩ := haccM.unit_from hU
          obtain ⟨y, hy, dy, _, rfl⟩ := haccM.unit_from hV
          apply hne
          have hsx : x.symbol = some s := hsU
          have hsy : y.symbol = some s := hsV
          show x.name = y.name
          -- two entries with the same symbol are the same entry
          have : ∀ (l : List (UnitEntry E M)), (l.filterMap UnitEntry.symbol).Nodup → x ∈ l → y ∈ l → x = y := by
            intro l
            induction l with
            | nil => simp
            | cons z l ih =>
              intro hl hx hy
              rw [List.filterMap_cons] at hl
              rcases List.mem_cons.1 hx with e1 | h1 <;> rcases List.mem_cons.1 hy with e2 | h2
              · rw [e1, e2]
              · subst e1
                rw [hsx] at hl
                exact absurd (List.mem_filterMap.2 ⟨y, h2, hsy⟩) (List.nodup_cons.1 hl).1
              · subst e2
                rw [hsy] at hl
                exact absurd (List.mem_filterMap.2 ⟨x, h1, hsx⟩) (List.nodup_cons.1 hl).1
              · refine ih ?_ h1 h2
                split at hl
                · exact hl
                · exact (List.nodup_cons.1 hl).2
          rw [this _ hs hx hy]
        · have hall := haccM.nodup
          unfold Unresolved.names at hall
          have key : ∀ n, (n ∈ defs.dimensions.map DimensionDef.name →
              n ∈ (UnresolvedTemplates.expand (MagOps.one E) factor tM).dimensions.map DimensionEntry.name) ∧
            (n ∈ defs.units.map UnitDef.name → n ∈ (UnresolvedTemplates.expand (MagOps.one E) factor tM).units.map UnitEntry.name) ∧
            (n ∈ defs.constants.map ConstantDef.name →
              n ∈ (UnresolvedTemplates.expand (MagOps.one E) factor tM).constants.map ConstantEntry.name) := by
            intro n
            refine ⟨?_, ?_, ?_⟩
            · intro hn
              obtain ⟨D, hD, rfl⟩ := List.mem_map.1 hn
              obtain ⟨d, hd, dm, _, rfl⟩ := haccM.dim_from hD
              exact List.mem_map_of_mem (f := DimensionEntry.name) hd
            · intro hn
              obtain ⟨D, hD, rfl⟩ := List.mem_map.1 hn
              obtain ⟨d, hd, dm, _, rfl⟩ := haccM.unit_from hD
              exact List.mem_map_of_mem (f := UnitEntry.name) hd
            · intro hn
              obtain ⟨D, hD, rfl⟩ := List.mem_map.1 hn
              obtain ⟨d, hd, dm, _, rfl⟩ := haccM.const_from hD
              exact List.mem_map_of_mem (f := ConstantEntry.name) hd
          rw [List.nodup_append, List.nodup_append] at hall ⊢
          obtain ⟨⟨_, _, h1⟩, _, h2⟩ := hall
          refine ⟨⟨haccM.dim_nodup, haccM.unit_nodup, ?_⟩, haccM.const_nodup, ?_⟩
          · intro a ha b hb
            exact h1 a ((key a).1 ha) b ((key b).2.1 hb)
          · intro a ha b hb
            refine h2 a ?_ b ((key b).2.2 hb)
            rcases List.mem_append.1 ha with ha | ha
            · exact List.mem_append_left _ ((key a).1 ha)
            · exact List.mem_append_right _ ((key a).2.1 ha)

end

set_option maxRecDepth 1000000 in
theorem siCheck_int : siCheck Int = true := by decide +kernel
set_option maxRecDepth 1000000 in
theorem siCheck_ratio : siCheck Ratio = true := by decide +kernel

/-- **C36, default build.** src/si.rs is accepted without any error; every unit statement is annotated, and every unit generated from it
has exactly the exponents of the annotated dimension; all names and all symbols are distinct. For whatever numbers. -/
theorem C36_int {M : Type} [MagOps Int M] (mag : Number → M) (factor : Prefix → M) : SiConsistent Int M mag factor :=
  si_consistent_of_check mag factor siCheck_int

/-- **C36, feature `rational-dimensions`.** -/
theorem C36_rational {M : Type} [MagOps Ratio M] (mag : Number → M) (factor : Prefix → M) : SiConsistent Ratio M mag factor :=
  si_consistent_of_check mag factor siCheck_ratio

/-- In particular with the code's own floating-point numbers. -/
example (lib : FloatLib) : @SiConsistent Int Magnitude _ _ _ (magOpsInt lib) Number.magnitude Prefix.factor :=
  @C36_int Magnitude (magOpsInt lib) _ _

end Diman
