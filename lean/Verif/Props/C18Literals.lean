import Verif.Props.C18
import Verif.Proofs.RationalBuild
/-!
# C18: exponents read from a text
The theorems about unit systems with rational exponents suppose that the exponents written in the system are fractions in lowest terms with a
positive denominator, in the range of `i64`. Exponents that the macro read from a text are, unless a denominator is written as zero or
negative.
-/
namespace Diman

/-- An exponent written without a denominator, or with a positive one. -/
def ExpSyn.Positive (x : ExpSyn) : Prop := 0 < x.denom.getD 1

/-- Every exponent in the statements is written without a denominator, or with a positive one. -/
def PositiveExponents (s : UnresolvedTemplates ExpSyn Number) : Prop :=
  (∀ d ∈ s.dimensions, d.rhs.AllExp ExpSyn.Positive) ∧ (∀ u ∈ s.units, u.definition.AllExp ExpSyn.Positive) ∧
    (∀ c ∈ s.constants, c.rhs.AllExp ExpSyn.Positive)

section
variable {E E' : Type} {P : E → Prop} {Q : E' → Prop} {f : E → Option E'}

mutual
theorem mapExp_all {T : Type} (hf : ∀ x n, P x → f x = some n → Q n) (e : Expr T E) (e' : Expr T E') (h : e.mapExp f = some e') (ha : e.AllExp P) :
    e'.AllExp Q := by
  match e with
  | .value v =>
    simp only [Expr.mapExp, Option.bind_eq_bind, Option.pure_def, Option.bind_eq_some_iff, Option.some.injEq] at h
    obtain ⟨v', hv, rfl⟩ := h
    exact mapExpF_all hf v v' hv ha
  | .binary l o r =>
    simp only [Expr.mapExp, Option.bind_eq_bind, Option.pure_def, Option.bind_eq_some_iff, Option.some.injEq] at h
    obtain ⟨l', hl, r', hr, rfl⟩ := h
    exact ⟨mapExp_all hf l l' hl ha.1, mapExpF_all hf r r' hr ha.2⟩
theorem mapExpF_all {T : Type} (hf : ∀ x n, P x → f x = some n → Q n) (e : Factor T E) (e' : Factor T E') (h : e.mapExp f = some e')
    (ha : e.AllExp P) : e'.AllExp Q := by
  match e with
  | .value v =>
    simp only [Factor.mapExp, Option.some.injEq] at h
    subst h; trivial
  | .power v x =>
    simp only [Factor.mapExp, Option.bind_eq_bind, Option.pure_def, Option.bind_eq_some_iff, Option.some.injEq] at h
    obtain ⟨n, hn, rfl⟩ := h
    exact hf x n ha hn
  | .paren e =>
    simp only [Factor.mapExp, Option.bind_eq_bind, Option.pure_def, Option.bind_eq_some_iff, Option.some.injEq] at h
    obtain ⟨e', he, rfl⟩ := h
    exact mapExp_all hf e e' he ha
end

mutual
theorem mapExp_dom {T : Type} (hf : ∀ x n, f x = some n → P x) (e : Expr T E) (e' : Expr T E') (h : e.mapExp f = some e') : e.AllExp P := by
  match e with
  | .value v =>
    simp only [Expr.mapExp, Option.bind_eq_bind, Option.pure_def, Option.bind_eq_some_iff, Option.some.injEq] at h
    obtain ⟨v', hv, rfl⟩ := h
    exact mapExpF_dom hf v v' hv
  | .binary l o r =>
    simp only [Expr.mapExp, Option.bind_eq_bind, Option.pure_def, Option.bind_eq_some_iff, Option.some.injEq] at h
    obtain ⟨l', hl, r', hr, rfl⟩ := h
    exact ⟨mapExp_dom hf l l' hl, mapExpF_dom hf r r' hr⟩
theorem mapExpF_dom {T : Type} (hf : ∀ x n, f x = some n → P x) (e : Factor T E) (e' : Factor T E') (h : e.mapExp f = some e') : e.AllExp P := by
  match e with
  | .value v => trivial
  | .power v x =>
    simp only [Factor.mapExp, Option.bind_eq_bind, Option.pure_def, Option.bind_eq_some_iff, Option.some.injEq] at h
    obtain ⟨n, hn, rfl⟩ := h
    exact hf x n hn
  | .paren e =>
    simp only [Factor.mapExp, Option.bind_eq_bind, Option.pure_def, Option.bind_eq_some_iff, Option.some.injEq] at h
    obtain ⟨e', he, rfl⟩ := h
    exact mapExp_dom hf e e' he
end
end

section
variable {E : Type} [ReadExponent E] {P : ExpSyn → Prop} {Q : E → Prop}

theorem readDefinition_all {B C D : Type} {f : C → D} (hf : ∀ x n, P x → ReadExponent.read x = some n → Q n) {d : Definition ExpSyn B C}
    {d' : Definition E B D} (h : readDefinition f d = some d') (ha : d.AllExp P) : d'.AllExp Q := by
  cases d with
  | base b =>
    simp only [readDefinition, Option.some.injEq] at h
    subst h; trivial
  | expression e =>
    simp only [readDefinition, Option.map_eq_some_iff] at h
    obtain ⟨e', he, rfl⟩ := h
    exact mapExp_all hf _ _ he ((Expr.allExp_map _ _ _).2 ha)

theorem readDefinition_dom {B C D : Type} {f : C → D} (hf : ∀ x (n : E), ReadExponent.read x = some n → P x) {d : Definition ExpSyn B C}
    {d' : Definition E B D} (h : readDefinition f d = some d') : d.AllExp P := by
  cases d with
  | base b => trivial
  | expression e =>
    simp only [readDefinition, Option.map_eq_some_iff] at h
    obtain ⟨e', he, rfl⟩ := h
    exact (Expr.allExp_map _ _ _).1 (mapExp_dom hf _ _ he)
end

/-- An exponent read from a numerator and a positive denominator is in lowest terms, with a positive denominator, in range. -/
theorem read_ok {x : ExpSyn} {r : Ratio} (h : ReadExponent.read x = some r) (hx : x.Positive) : (WrittenExponent.Ok : Ratio → Prop) r :=
  ⟨Ratio.new_pos h hx, (Ratio.new_some h).2.2.2.2⟩

/-- **C18, what the macro reads.** With rational exponents: if the statements read from a text write no denominator that is zero or negative,
every exponent is in lowest terms with a positive denominator and in the range of `i64`, in the statements and in what they are expanded to. -/
theorem C18_literals_rational {M : Type} [MagOps Ratio M] (mag : Number → M) (factor : Prefix → M) (s : UnresolvedTemplates ExpSyn Number)
    (t : UnresolvedTemplates Ratio M) (read : readTemplates mag s = some t) (positive : PositiveExponents s) :
    (UnresolvedTemplates.expand (MagOps.one Ratio) factor t).LitExponents (WrittenExponent.Ok : Ratio → Prop) := by
  have ok : ∀ (x : ExpSyn) (n : Ratio), x.Positive → ReadExponent.read x = some n → (WrittenExponent.Ok : Ratio → Prop) n := fun x n hx h => read_ok h hx
  simp only [readTemplates, Option.bind_eq_bind, Option.bind_eq_some_iff, pure, Option.some.injEq] at read
  obtain ⟨ds, hds, us, hus, cs, hcs, rfl⟩ := read
  refine ⟨fun d hd => ?_, fun u hu => ?_, fun c hc => ?_⟩
  · obtain ⟨a, ha, he⟩ := forall₂_mem_right (mapM_option_some hds) hd
    obtain ⟨x, hx, rfl⟩ := Option.map_eq_some_iff.1 he
    exact readDefinition_all ok hx (positive.1 a ha)
  · simp only [UnresolvedTemplates.expand, List.mem_flatMap, UnitTemplate.expand, List.mem_map] at hu
    obtain ⟨v, hv, pre, _, al, _, rfl⟩ := hu
    obtain ⟨a, ha, he⟩ := forall₂_mem_right (mapM_option_some hus) hv
    obtain ⟨x, hx, rfl⟩ := Option.map_eq_some_iff.1 he
    show (UnitTemplate.getDefinition _ _ _ pre al).AllExp _
    unfold UnitTemplate.getDefinition
    by_cases hc : (al.isNone && pre.isNone) = true
    · simp only [hc, if_true]
      exact readDefinition_all ok hx (positive.2.1 a ha)
    · simp only [hc]
      exact ⟨trivial, trivial⟩
  · obtain ⟨a, ha, he⟩ := forall₂_mem_right (mapM_option_some hcs) hc
    obtain ⟨x, hx, rfl⟩ := Option.map_eq_some_iff.1 he
    exact mapExp_all ok _ _ hx ((Expr.allExp_map _ _ _).2 (positive.2.2 a ha))

/-- A text of the build with integer exponents writes no denominators. -/
theorem positive_of_int {ts : List Tok} {s : UnresolvedTemplates ExpSyn Number} (h : parseSystem false ts = some s) : PositiveExponents s := by
  obtain ⟨-, t', ht⟩ := parse_rational (fun _ => ()) h
  have dom : ∀ (x : ExpSyn) (n : I64), ReadExponent.read x = some n → x.Positive := by
    intro x n h
    simp only [ReadExponent.read] at h
    split at h
    · rename_i hd
      show 0 < x.denom.getD 1
      rw [hd]; decide
    · simp at h
  simp only [readTemplates, Option.bind_eq_bind, Option.bind_eq_some_iff, pure, Option.some.injEq] at ht
  obtain ⟨ds, hds, us, hus, cs, hcs, rfl⟩ := ht
  refine ⟨fun d hd => ?_, fun u hu => ?_, fun c hc => ?_⟩
  · obtain ⟨a, ha, he⟩ := forall₂_mem_left (mapM_option_some hds) hd
    obtain ⟨x, hx, rfl⟩ := Option.map_eq_some_iff.1 he
    exact readDefinition_dom dom hx
  · obtain ⟨a, ha, he⟩ := forall₂_mem_left (mapM_option_some hus) hu
    obtain ⟨x, hx, rfl⟩ := Option.map_eq_some_iff.1 he
    exact readDefinition_dom dom hx
  · obtain ⟨a, ha, he⟩ := forall₂_mem_left (mapM_option_some hcs) hc
    obtain ⟨x, hx, rfl⟩ := Option.map_eq_some_iff.1 he
    exact (Expr.allExp_map _ _ _).1 (mapExp_dom dom _ _ hx)

/-- `m^(2/4)` and `m^(-3)` are read as one half and minus three; a negative or zero denominator is not positive. -/
example : (ReadExponent.read ⟨2, some 4⟩ : Option Ratio) = some ⟨1, 2⟩ ∧ ExpSyn.Positive ⟨2, some 4⟩ ∧
    (ReadExponent.read ⟨-3, none⟩ : Option Ratio) = some ⟨-3, 1⟩ ∧ ExpSyn.Positive ⟨-3, none⟩ ∧
    ¬ ExpSyn.Positive ⟨1, some (-2)⟩ ∧ ¬ ExpSyn.Positive ⟨1, some 0⟩ := by
  simp only [ReadExponent.read, ExpSyn.Positive]
  decide +kernel

end Diman
