import Verif.Spec.Rational
import Verif.Proofs.ExpMap
import Verif.Proofs.Ratio
import Verif.Proofs.Generated
import Verif.Props.C42
/-! The build with fractions does everything the integer build does. -/
set_option linter.unusedSectionVars false
namespace Diman

/-! ### `n/1` -/

theorem gcdLoop_one (n : Int) : gcdLoop n 1 = some 1 := by
  rw [gcdLoop, dif_neg (by decide), if_neg (by rintro ⟨-, h⟩; revert h; decide), gcdLoop, dif_pos (Int.tmod_one n)]
theorem gcd_one (n : Int) : gcd n 1 = some 1 := by
  unfold gcd
  rw [gcdLoop_one]
  decide +kernel
theorem ratio_new_one {n : Int} (h : IsI64 n) : Ratio.new n 1 = some (asRatio n) := by
  unfold Ratio.new
  rw [gcd_one]
  simp only [Option.bind_eq_bind, Option.bind_some, i64Div, if_neg (show ¬ (1 : Int) = 0 by decide), Int.tdiv_one, i64_of h]
  rw [i64_of (by decide)]
  rfl
theorem ratio_new_one_none {n : Int} (h : ¬ IsI64 n) : i64 n = none := by unfold i64; exact if_neg h

theorem ratio_add {a b : Int} (ha : IsI64 a) (hb : IsI64 b) : Ratio.add (asRatio a) (asRatio b) = (i64 (a + b)).map asRatio := by
  unfold Ratio.add asRatio
  simp only [Int.mul_one, i64_of ha, i64_of hb, Option.bind_eq_bind, Option.bind_some]
  by_cases h : IsI64 (a + b)
  · rw [i64_of h]
    simp only [Option.bind_some, i64_of (show IsI64 1 by decide), ratio_new_one h]; rfl
  · rw [ratio_new_one_none h]; rfl
theorem ratio_mul {a b : Int} : Ratio.mul (asRatio a) (asRatio b) = (i64 (a * b)).map asRatio := by
  unfold Ratio.mul asRatio
  simp only [Int.mul_one, Option.bind_eq_bind]
  by_cases h : IsI64 (a * b)
  · rw [i64_of h]
    simp only [Option.bind_some, i64_of (show IsI64 1 by decide), ratio_new_one h]; rfl
  · rw [ratio_new_one_none h]; rfl
theorem ratio_neg {a : Int} : Ratio.neg (asRatio a) = (i64 (-a)).map asRatio := by
  unfold Ratio.neg asRatio
  cases i64 (-a) <;> rfl

/-! ### Machine integers as an exponent type -/

/-- The exponents of the integer build. -/
structure I64 where
  val : Int
  isI64 : IsI64 val
  deriving DecidableEq

theorem I64.ext {a b : I64} (h : a.val = b.val) : a = b := by cases a; cases b; cases h; rfl

/-- The range check. -/
def I64.check (n : Int) : Option I64 := if h : IsI64 n then some ⟨n, h⟩ else none

theorem I64.check_val (n : Int) : (I64.check n).map I64.val = i64 n := by
  unfold I64.check i64
  by_cases h : IsI64 n
  · rw [dif_pos h]; exact (if_pos h).symm
  · rw [dif_neg h]; exact (if_neg h).symm

instance : Exponent I64 where
  decEq := inferInstance
  one := ⟨1, by decide⟩
  zero := ⟨0, by decide⟩
  ofInt i := if h : IsI64 i then ⟨i, h⟩ else ⟨0, by decide⟩
  add a b := I64.check (a.1 + b.1)
  mul a b := I64.check (a.1 * b.1)
  neg a := I64.check (-a.1)

/-- As an exponent of the build with fractions. -/
def I64.ratio (n : I64) : Ratio := asRatio n.1

instance : ExpHom (I64.val : I64 → Int) where
  inj _ _ h := I64.ext h
  one := rfl
  add a b := (I64.check_val (a.1 + b.1)).symm
  mul a b := (I64.check_val (a.1 * b.1)).symm
  neg a := (I64.check_val (-a.1)).symm

theorem check_ratio (n : Int) : (I64.check n).map I64.ratio = (i64 n).map asRatio := by
  rw [← I64.check_val, Option.map_map]; rfl

instance : ExpHom I64.ratio where
  inj a b h := I64.ext (congrArg Ratio.num h)
  one := rfl
  add a b := (ratio_add a.isI64 b.isI64).trans (check_ratio _).symm
  mul _ _ := ratio_mul.trans (check_ratio _).symm
  neg _ := ratio_neg.trans (check_ratio _).symm

/-- What the integer build reads. -/
instance : ReadExponent I64 where
  rational := false
  read x := if x.denom = none then I64.check x.num else none

theorem read_int {x : ExpSyn} {n : I64} (h : ReadExponent.read x = some n) : ReadExponent.read x = some n.1 := by
  simp only [ReadExponent.read] at h ⊢
  split at h
  · unfold I64.check at h
    split at h
    · rw [← Option.some.inj h]
    · exact absurd h (by simp)
  · exact absurd h (by simp)
theorem read_ratio {x : ExpSyn} {n : I64} (h : ReadExponent.read x = some n) : ReadExponent.read x = some n.ratio := by
  simp only [ReadExponent.read] at h ⊢
  split at h
  · rename_i hd
    unfold I64.check at h
    split at h
    · rename_i hn
      rw [← Option.some.inj h, hd]
      exact ratio_new_one hn
    · exact absurd h (by simp)
  · exact absurd h (by simp)

/-! ### Reading -/

section
variable {E E' M M' : Type} [Exponent E] [ReadExponent E] [Exponent E'] [ReadExponent E'] {ψ : E → E'}

mutual
theorem mapExp_lift {T : Type} (hr : ∀ x n, ReadExponent.read x = some n → ReadExponent.read x = some (ψ n)) (e : Expr T ExpSyn)
    (e' : Expr T E) (h : e.mapExp ReadExponent.read = some e') : e.mapExp ReadExponent.read = some (e'.mapPow ψ) := by
  match e with
  | .value v =>
    simp only [Expr.mapExp, Option.bind_eq_bind, Option.pure_def, Option.bind_eq_some_iff, Option.some.injEq] at h
    obtain ⟨v', hv, rfl⟩ := h
    simp [Expr.mapExp, mapExpF_lift hr v v' hv, Expr.mapPow]
  | .binary l o r =>
    simp only [Expr.mapExp, Option.bind_eq_bind, Option.pure_def, Option.bind_eq_some_iff, Option.some.injEq] at h
    obtain ⟨l', hl, r', hr', rfl⟩ := h
    simp [Expr.mapExp, mapExp_lift hr l l' hl, mapExpF_lift hr r r' hr', Expr.mapPow]
theorem mapExpF_lift {T : Type} (hr : ∀ x n, ReadExponent.read x = some n → ReadExponent.read x = some (ψ n)) (e : Factor T ExpSyn)
    (e' : Factor T E) (h : e.mapExp ReadExponent.read = some e') : e.mapExp ReadExponent.read = some (e'.mapPow ψ) := by
  match e with
  | .value v =>
    simp only [Factor.mapExp, Option.some.injEq] at h
    subst h; rfl
  | .power v x =>
    simp only [Factor.mapExp, Option.bind_eq_bind, Option.pure_def, Option.bind_eq_some_iff, Option.some.injEq] at h
    obtain ⟨n, hn, rfl⟩ := h
    simp [Factor.mapExp, hr x n hn, Factor.mapPow]
  | .paren e =>
    simp only [Factor.mapExp, Option.bind_eq_bind, Option.pure_def, Option.bind_eq_some_iff, Option.some.injEq] at h
    obtain ⟨e', he, rfl⟩ := h
    simp [Factor.mapExp, mapExp_lift hr e e' he, Factor.mapPow]
end

variable (hr : ∀ x n, ReadExponent.read x = some n → ReadExponent.read x = some (ψ n))
include hr

theorem readExpr_lift {C D D' : Type} (f : C → D) (φ : D → D') (e : Expr (Atom C) ExpSyn) (e' : Expr (Atom D) E)
    (h : readExpr f e = some e') : readExpr (φ ∘ f) e = some (e'.mapEx ψ φ) := by
  unfold readExpr at h ⊢
  have h1 : (e.map (Atom.mapConcrete (φ ∘ f))) = (e.map (Atom.mapConcrete f)).map (Atom.mapConcrete φ) := by
    rw [Expr.map_map, Atom.mapConcrete_comp]
  rw [h1, Expr.mapExp_map, mapExp_lift hr _ _ h, Expr.mapEx, ← Expr.mapPow_map]
  rfl

theorem readDefinition_lift {B C D D' : Type} (f : C → D) (φ : D → D') (d : Definition ExpSyn B C) (d' : Definition E B D)
    (h : readDefinition f d = some d') : readDefinition (φ ∘ f) d = some (d'.mapEx ψ φ) := by
  cases d with
  | base b =>
    simp only [readDefinition, Option.some.injEq] at h
    subst h; rfl
  | expression e =>
    simp only [readDefinition, Option.map_eq_some_iff] at h
    obtain ⟨e', he, rfl⟩ := h
    simp only [readDefinition, readExpr_lift hr f φ e e' he, Option.map_some]
    rfl

theorem mapM_lift {A B B' : Type} {f : A → Option B} {g : A → Option B'} {k : B → B'} {l : List A} {l' : List B}
    (h : ∀ a b, f a = some b → g a = some (k b)) (hl : l.mapM f = some l') : l.mapM g = some (l'.map k) := by
  induction l generalizing l' with
  | nil => simp at hl; subst hl; rfl
  | cons a l ih =>
    rw [List.mapM_cons] at hl ⊢
    simp only [Option.bind_eq_bind, Option.pure_def, Option.bind_eq_some_iff, Option.some.injEq] at hl
    obtain ⟨b, hb, l'', hl'', rfl⟩ := hl
    rw [h a b hb, ih hl'']; rfl

theorem readTemplates_lift (mag : Number → M) (φ : M → M') (t : UnresolvedTemplates ExpSyn Number) (t' : UnresolvedTemplates E M)
    (h : readTemplates mag t = some t') : readTemplates (φ ∘ mag) t = some (t'.mapEx ψ φ) := by
  unfold readTemplates at h ⊢
  simp only [Option.bind_eq_bind, Option.pure_def, Option.bind_eq_some_iff, Option.some.injEq] at h ⊢
  obtain ⟨ds, hd, us, hu, cs, hc, rfl⟩ := h
  refine ⟨_, mapM_lift (k := DimensionEntry.mapEx ψ) hr ?_ hd, _, mapM_lift (k := UnitTemplate.mapEx ψ φ) hr ?_ hu, _,
    mapM_lift (k := ConstantEntry.mapEx ψ φ) hr ?_ hc, rfl⟩
  · intro a b hab
    obtain ⟨d', hd', rfl⟩ := Option.map_eq_some_iff.1 hab
    have := readDefinition_lift hr id (id : Unit → Unit) a.rhs d' hd'
    rw [show (id : Unit → Unit) ∘ id = id from rfl] at this
    rw [this]; rfl
  · intro a b hab
    obtain ⟨d', hd', rfl⟩ := Option.map_eq_some_iff.1 hab
    rw [readDefinition_lift hr mag φ a.definition d' hd']; rfl
  · intro a b hab
    obtain ⟨d', hd', rfl⟩ := Option.map_eq_some_iff.1 hab
    rw [readExpr_lift hr mag φ a.rhs d' hd']; rfl
end

/-! ### The grammar -/

mutual
theorem writtenExpr_rational {T : Type} {A : T → List Tok → Prop} {e : Expr T ExpSyn} {ts : List Tok} (h : WrittenExpr A false e ts) :
    WrittenExpr A true e ts ∧ ∃ e' : Expr T I64, e.mapExp ReadExponent.read = some e' := by
  match e with
  | .value v =>
    simp only [WrittenExpr] at h ⊢
    obtain ⟨h1, v', h2⟩ := writtenFactor_rational h
    exact ⟨h1, .value v', by simp [Expr.mapExp, h2]⟩
  | .binary l o r =>
    simp only [WrittenExpr] at h ⊢
    obtain ⟨tl, tp, tr, hl, hr, ho, rfl⟩ := h
    obtain ⟨h1, l', h2⟩ := writtenExpr_rational hl
    obtain ⟨h3, r', h4⟩ := writtenFactor_rational hr
    exact ⟨⟨tl, tp, tr, h1, h3, ho, rfl⟩, .binary l' o r', by simp [Expr.mapExp, h2, h4]⟩
theorem writtenFactor_rational {T : Type} {A : T → List Tok → Prop} {e : Factor T ExpSyn} {ts : List Tok} (h : WrittenFactor A false e ts) :
    WrittenFactor A true e ts ∧ ∃ e' : Factor T I64, e.mapExp ReadExponent.read = some e' := by
  match e with
  | .value v => exact ⟨h, .value v, rfl⟩
  | .power v x =>
    simp only [WrittenFactor] at h ⊢
    obtain ⟨ta, tx, ha, hx, rfl⟩ := h
    obtain ⟨n, d⟩ := x
    cases d with
    | some d => exact absurd hx.1 (by simp)
    | none =>
      refine ⟨⟨ta, tx, ha, hx, rfl⟩, ?_⟩
      have hn : IsI64 n := by
        obtain ⟨h1, h2, -⟩ := hx
        simp only at h1 h2
        unfold IsI64 i64Min i64Max; omega
      exact ⟨.power v ⟨n, hn⟩, by simp [Factor.mapExp, ReadExponent.read, I64.check, hn]⟩
  | .paren e =>
    simp only [WrittenFactor] at h ⊢
    obtain ⟨c, hc, rfl⟩ := h
    obtain ⟨h1, e', h2⟩ := writtenExpr_rational hc
    exact ⟨⟨c, h1, rfl⟩, .paren e', by simp [Factor.mapExp, h2]⟩
end

theorem readExpr_of_mapExp {C D : Type} (f : C → D) {e : Expr (Atom C) ExpSyn} (h : ∃ e' : Expr (Atom C) I64, e.mapExp ReadExponent.read = some e') :
    ∃ e' : Expr (Atom D) I64, readExpr f e = some e' := by
  obtain ⟨e', h⟩ := h
  exact ⟨_, by unfold readExpr; rw [Expr.mapExp_map, h]; rfl⟩

/-- A statement of the integer build is one of the build with fractions, and its exponents are machine integers. -/
theorem writtenEntry_rational {en : Entry} {ts : List Tok} (h : WrittenEntry false en ts) :
    WrittenEntry true en ts ∧ match en with
      | .dimension d => ∀ e, d.rhs = .expression e → ∃ e' : Expr _ I64, e.mapExp ReadExponent.read = some e'
      | .unit u => ∀ e, u.definition = .expression e → ∃ e' : Expr _ I64, e.mapExp ReadExponent.read = some e'
      | .constant c => ∃ e' : Expr _ I64, c.rhs.mapExp ReadExponent.read = some e'
      | _ => True := by
  cases en with
  | quantityType x => exact ⟨h, trivial⟩
  | dimensionType x => exact ⟨h, trivial⟩
  | dimension d =>
    obtain ⟨n, r⟩ := d
    obtain ⟨h1, td, h2, h3⟩ := h
    cases r with
    | base b => exact ⟨⟨h1, td, h2, h3⟩, fun e he => by simp at he⟩
    | expression e =>
      obtain ⟨te, h4, h5⟩ := h3
      obtain ⟨h6, h7⟩ := writtenExpr_rational h4
      refine ⟨⟨h1, td, h2, te, h6, h5⟩, fun e' he => ?_⟩
      simp only [Definition.expression.injEq] at he
      subst he; exact h7
  | unit u =>
    obtain ⟨n, s, al, p, an, d⟩ := u
    obtain ⟨as, ta, tn, td, h1, h2, h3, h4, h5, h6, h7, h8⟩ := h
    cases d with
    | base b => exact ⟨⟨as, ta, tn, td, h1, h2, h3, h4, h5, h6, h7, h8⟩, fun e he => by simp at he⟩
    | expression e =>
      obtain ⟨h9, te, h10, h11⟩ := h8
      obtain ⟨h12, h13⟩ := writtenExpr_rational h10
      refine ⟨⟨as, ta, tn, td, h1, h2, h3, h4, h5, h6, h7, h9, te, h12, h11⟩, fun e' he => ?_⟩
      simp only [Definition.expression.injEq] at he
      subst he; exact h13
  | constant c =>
    obtain ⟨h1, tn, te, h2, h3, h4⟩ := h
    obtain ⟨h5, h6⟩ := writtenExpr_rational h3
    exact ⟨⟨h1, tn, te, h2, h5, h4⟩, h6⟩

theorem separated_rational {l : List Entry} {ts : List Tok} (h : Separated (WrittenEntry false) ';' l ts) :
    Separated (WrittenEntry true) ';' l ts ∧ ∀ en ∈ l, ∃ ts, WrittenEntry false en ts := by
  induction l generalizing ts with
  | nil => exact ⟨h, by simp⟩
  | cons a l ih =>
    obtain ⟨ta, tl, h1, h2, h3⟩ := h
    obtain ⟨h4, h5⟩ := ih h2
    refine ⟨⟨ta, tl, (writtenEntry_rational h1).1, h4, h3⟩, ?_⟩
    intro en hen
    rcases List.mem_cons.1 hen with rfl | hen
    · exact ⟨ta, h1⟩
    · exact h5 en hen

/-- What the integer build parses, the build with fractions parses to the same statements, and their exponents are machine integers. -/
theorem parse_rational {M : Type} (mag : Number → M) {ts : List Tok} {t : UnresolvedTemplates ExpSyn Number} (h : parseSystem false ts = some t) :
    parseSystem true ts = some t ∧ ∃ t' : UnresolvedTemplates I64 M, readTemplates mag t = some t' := by
  rw [C42_iff] at h
  obtain ⟨l, h1, h2⟩ := h
  obtain ⟨h3, h4⟩ := separated_rational h1
  refine ⟨(C42_iff _ _ _).2 ⟨l, h3, h2⟩, ?_⟩
  have hd : ∀ d ∈ t.dimensions, ((readDefinition id d.rhs).map (DimensionEntry.mk d.name) : Option (DimensionEntry I64)).isSome := by
    intro d hd
    rw [← h2.dimensions, List.mem_filterMap] at hd
    obtain ⟨en, hen, he⟩ := hd
    obtain ⟨ts', hw⟩ := h4 en hen
    cases en with
    | dimension d' =>
      simp only [Option.some.injEq] at he
      subst he
      have := (writtenEntry_rational hw).2
      simp only at this
      obtain ⟨n, r⟩ := d'
      cases r with
      | base b => rfl
      | expression e =>
        obtain ⟨e', he'⟩ := readExpr_of_mapExp (id : Unit → Unit) (this e rfl)
        simp [readDefinition, he']
    | _ => simp at he
  have hu : ∀ u ∈ t.units, ((readDefinition mag u.definition).map fun d =>
      (⟨u.name, u.symbol, u.aliases, u.prefixes, u.annotation, d⟩ : UnitTemplate I64 M)).isSome := by
    intro d hd
    rw [← h2.units, List.mem_filterMap] at hd
    obtain ⟨en, hen, he⟩ := hd
    obtain ⟨ts', hw⟩ := h4 en hen
    cases en with
    | unit d' =>
      simp only [Option.some.injEq] at he
      subst he
      have := (writtenEntry_rational hw).2
      simp only at this
      obtain ⟨n, s, al, p, an, r⟩ := d'
      cases r with
      | base b => rfl
      | expression e =>
        obtain ⟨e', he'⟩ := readExpr_of_mapExp mag (this e rfl)
        simp [readDefinition, he']
    | _ => simp at he
  have hc : ∀ c ∈ t.constants, ((readExpr mag c.rhs).map fun e => (⟨c.name, e, c.annotation⟩ : ConstantEntry I64 M)).isSome := by
    intro d hd
    rw [← h2.constants, List.mem_filterMap] at hd
    obtain ⟨en, hen, he⟩ := hd
    obtain ⟨ts', hw⟩ := h4 en hen
    cases en with
    | constant d' =>
      simp only [Option.some.injEq] at he
      subst he
      have := (writtenEntry_rational hw).2
      obtain ⟨e', he'⟩ := readExpr_of_mapExp mag this
      simp [he']
    | _ => simp at he
  obtain ⟨ds, hds⟩ := Option.isSome_iff_exists.1 (mapM_option_isSome hd)
  obtain ⟨us, hus⟩ := Option.isSome_iff_exists.1 (mapM_option_isSome hu)
  obtain ⟨cs, hcs⟩ := Option.isSome_iff_exists.1 (mapM_option_isSome hc)
  exact ⟨_, by unfold readTemplates; rw [hds, hus, hcs]; rfl⟩

end Diman
