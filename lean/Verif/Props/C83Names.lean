import Verif.Props.C83Tokens
import Verif.Spec.GeneratedIdents
/-!
# C83, the identifiers in the generated definitions
-/
namespace Diman

/-- What a statement of the system is called. -/
theorem entry_idents {P : Str → Prop} {rational : Bool} {ts : List Tok} (idents : ∀ x, OccursIn x ts → P x) {s : UnresolvedTemplates ExpSyn Number}
    (parsed : parseSystem rational ts = some s) :
    (∀ x ∈ s.quantityTypes, P x) ∧ (∀ x ∈ s.dimensionTypes, P x) ∧ (∀ d ∈ s.dimensions, P d.name) ∧ ∀ c ∈ s.constants, P c.name := by
  obtain ⟨l, hl, hc⟩ := (C42_iff rational ts s).1 parsed
  have hmem : ∀ e ∈ l, ∃ te, WrittenEntry rational e te ∧ ∀ x, OccursIn x te → OccursIn x ts := fun e he => separated_mentions hl he
  refine ⟨fun x hx => ?_, fun x hx => ?_, fun x hx => ?_, fun x hx => ?_⟩
  · rw [← hc.quantityTypes, List.mem_filterMap] at hx
    obtain ⟨e, he, hee⟩ := hx
    obtain ⟨te, hte, hin⟩ := hmem e he
    cases e <;> simp at hee
    subst hee
    exact idents _ (hin _ (plain_mentions hte.2 (.later .here)))
  · rw [← hc.dimensionTypes, List.mem_filterMap] at hx
    obtain ⟨e, he, hee⟩ := hx
    obtain ⟨te, hte, hin⟩ := hmem e he
    cases e <;> simp at hee
    subst hee
    exact idents _ (hin _ (plain_mentions hte.2 (.later .here)))
  · rw [← hc.dimensions, List.mem_filterMap] at hx
    obtain ⟨e, he, hee⟩ := hx
    obtain ⟨te, hte, hin⟩ := hmem e he
    cases e <;> simp at hee
    subst hee
    obtain ⟨_, td, hp, _⟩ := hte
    exact idents _ (hin _ (plain_mentions hp (.later .here)))
  · rw [← hc.constants, List.mem_filterMap] at hx
    obtain ⟨e, he, hee⟩ := hx
    obtain ⟨te, hte, hin⟩ := hmem e he
    cases e <;> simp at hee
    subst hee
    obtain ⟨_, tn, te, _, _, hp⟩ := hte
    exact idents _ (hin _ (plain_mentions hp (.later .here)))

section
set_option linter.unusedSectionVars false
variable {E M : Type} [ReadExponent E] [Exponent E] [MagOps E M]

/-- The names in the definitions of an accepted run, `P` being what the identifiers of the statements satisfy. -/
theorem accepted_idents {P : Str → Prop} (plain : ∀ x, PlainIdent x → P x) (factor : Prefix → M) (t : UnresolvedTemplates E M) (defs : Defs E M)
    (written : t.Written P) (types : (∀ x ∈ t.quantityTypes, P x) ∧ (∀ x ∈ t.dimensionTypes, P x)) (dims : ∀ d ∈ t.dimensions, P d.name)
    (consts : ∀ c ∈ t.constants, P c.name) (run : runIdents factor t = some (defs, [])) : defs.IdentifiersAre P PlainIdent := by
  rcases runIdents_outcome factor t with ⟨h, _⟩ | ⟨h, made⟩
  · rw [h] at run; simp at run
  rw [run] at h
  obtain ⟨res, acc⟩ := accepted_of_run h.symm
  have hq := acc.quantity
  have hd := acc.dimension
  simp only [UnresolvedTemplates.expand] at hq hd
  refine ⟨⟨types.2 _ (by rw [hd]; simp), types.1 _ (by rw [hq]; simp)⟩, fun D hD => ?_, fun U hU => ?_, fun C hC => ?_, fun f hf => ?_⟩
  · obtain ⟨d, hd, _, _, rfl⟩ := acc.dim_from hD
    exact dims d hd
  · obtain ⟨x, hx, dm, _, rfl⟩ := acc.unit_from hU
    simp only [UnresolvedTemplates.expand, List.mem_flatMap] at hx
    obtain ⟨u, hu, hx⟩ := hx
    obtain ⟨pre, al, hpre, hal, rfl⟩ := UnitTemplate.mem_expand.1 hx
    obtain ⟨w1, w2, w3⟩ := written.units u hu
    have base : P (al.getD u.name) := by
      rcases hal with rfl | ⟨a, ha, rfl⟩
      · exact w1
      · exact w2 a ha
    have fine : ¬ u.Refused pre al := fun hr => made (.inl ⟨u, hu, pre, by
      rcases hpre with rfl | ⟨p, hp, rfl⟩
      · simp
      · simp [hp], al, by
      rcases hal with rfl | ⟨p, hp, rfl⟩
      · simp
      · simp [hp], hr⟩)
    cases pre with
    | none =>
      cases al with
      | none => exact ⟨base, w3⟩
      | some a => exact ⟨base, fun s hs => by simp [UnitEntry.toDef, UnitTemplate.expandOne, UnitTemplate.formatSymbol] at hs⟩
    | some p =>
      have h1 : PlainIdent (p.name ++ al.getD u.name) := by
        by_contra hn
        exact fine ⟨p, rfl, .inl hn⟩
      refine ⟨?_, fun s hs => ?_⟩
      · cases al with
        | none => exact plain _ h1
        | some a => exact plain _ h1
      · cases al with
        | some a => simp [UnitEntry.toDef, UnitTemplate.expandOne, UnitTemplate.formatSymbol] at hs
        | none =>
          cases hsym : u.symbol with
          | none => simp [UnitEntry.toDef, UnitTemplate.expandOne, UnitTemplate.formatSymbol, hsym] at hs
          | some y =>
            simp only [UnitEntry.toDef, UnitTemplate.expandOne, UnitTemplate.formatSymbol, hsym] at hs
            simp at hs
            subst hs
            refine plain _ ?_
            by_contra hn
            exact fine ⟨p, rfl, .inr ⟨rfl, y, hsym, hn⟩⟩
  · obtain ⟨c, hc, _, _, rfl⟩ := acc.const_from hC
    exact consts c hc
  · rw [acc.base_dims] at hf
    simp only [baseDimensions, List.mem_map, List.mem_filter] at hf
    obtain ⟨d, ⟨hd, hb⟩, rfl⟩ := hf
    by_contra hn
    exact made (.inr ⟨d, hd, hb, hn⟩)

/-- **C83, the generated identifiers.** Whatever tokens the macro accepts: every type, dimension, unit, symbol and constant in the definitions has an identifier as
its name, plain or raw, and plain if no identifier of the invocation is raw. The fields of the dimension type are always plain. -/
theorem C83_generated (mag : Number → M) (factor : Prefix → M) (ts : List Tok) (defs : Defs E M)
    (accepted : unitSystemIdents mag factor ts = .done (defs, [])) :
    ((∀ x, OccursIn x ts → PlainIdent x ∨ RawIdent x) → defs.IdentifiersAre (fun x => PlainIdent x ∨ RawIdent x) PlainIdent) ∧
      ((∀ x, OccursIn x ts → PlainIdent x) → defs.IdentifiersAre PlainIdent PlainIdent) := by
  have key : ∀ P : Str → Prop, (∀ x, PlainIdent x → P x) → (∀ x, OccursIn x ts → P x) → defs.IdentifiersAre P PlainIdent := by
    intro P plain idents
    unfold unitSystemIdents at accepted
    split at accepted
    · simp at accepted
    rename_i s hp
    split at accepted
    · simp at accepted
    rename_i t hr
    split at accepted
    · simp at accepted
    rename_i r run
    injection accepted with he
    subst he
    obtain ⟨e1, e2, e3, e4⟩ := entry_idents idents hp
    have w := written_of_mentions mag ts s t _ hp hr idents
    simp only [readTemplates, Option.bind_eq_bind, Option.bind_eq_some_iff, pure, Option.some.injEq] at hr
    obtain ⟨ds, hds, us, hus, cs, hcs, rfl⟩ := hr
    refine accepted_idents plain factor _ defs w ⟨e1, e2⟩ (fun d hd => ?_) (fun c hc => ?_) run
    · obtain ⟨a, ha, he⟩ := forall₂_mem_right (mapM_option_some hds) hd
      obtain ⟨r, _, rfl⟩ := Option.map_eq_some_iff.1 he
      exact e3 a ha
    · obtain ⟨a, ha, he⟩ := forall₂_mem_right (mapM_option_some hcs) hc
      obtain ⟨r, _, rfl⟩ := Option.map_eq_some_iff.1 he
      exact e4 a ha
  exact ⟨key _ fun x h => .inl h, key _ fun x h => h⟩

end

/-! ### The hypotheses are met -/
section
attribute [local instance] Sample.exactMag

-- A system with the symbol `r#in` and one with prefixes, each accepted.
example : (∃ defs : Defs Int ℚ, inchRun (str!"r#in") [] = .done (defs, []) ∧ defs.IdentifiersAre (fun x => PlainIdent x ∨ RawIdent x) PlainIdent) ∧
    ∃ defs : Defs Int ℚ, inchRun (str!"inch") [.ident (str!"kilo")] = .done (defs, []) ∧ defs.IdentifiersAre PlainIdent PlainIdent := by
  have get : ∀ r : MacroResult (Defs Int ℚ × List Diag), r.clean = true → ∃ defs, r = .done (defs, []) := by
    rintro (_ | _ | ⟨d, _ | ⟨_, _⟩⟩) h <;> simp [MacroResult.clean] at h ⊢
  obtain ⟨d1, h1⟩ := get (inchRun (str!"r#in") []) (by decide +kernel)
  obtain ⟨d2, h2⟩ := get (inchRun (str!"inch") [.ident (str!"kilo")]) (by decide +kernel)
  refine ⟨⟨d1, h1, (C83_generated _ _ _ d1 h1).1 fun x h => ?_⟩, ⟨d2, h2, (C83_generated _ _ _ d2 h2).2 fun x h => ?_⟩⟩
  · unfold inchTokens at h
    repeat' first
      | exact .inl (plain_of (by decide +kernel))
      | exact .inr ⟨str!"in", plain_of (by decide +kernel), rfl⟩
      | cases ‹OccursIn _ _›
  · unfold inchTokens at h
    repeat' first | exact plain_of (by decide +kernel) | cases ‹OccursIn _ _›

end
end Diman
