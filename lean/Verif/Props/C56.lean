import Verif.Proofs.ReleaseText
import Verif.Proofs.Modulo
import Verif.Proofs.Estimate
import Verif.Props.C09
import Verif.Props.C20
import Verif.Props.C42Reading
import Verif.Model.Lexer
/-!
# C56 — Release builds
`unitSystem` at exponent type `Int` (or `Ratio`) is the macro in the dev profile, where overflow panics; at `RelInt` (or `RelRatio`) the macro in
the release profile, where it wraps (`Verif/Model/Release.lean`). The same exponent types give the types and functions of the generated code in
either profile. `asRelease`, `CarriedDefs`, `carry`: `Verif/Spec/Release.lean`.
-/
set_option linter.unusedSectionVars false
set_option synthInstance.maxSize 1000
namespace Diman

/-! ### Both exponent types at once -/

section
variable {E E' M : Type} [Exponent E] [Exponent E'] [ReadExponent E] [ReadExponent E'] [FieldOps E] [FieldOps E'] [ShowExponent E] [ShowExponent E']
  [MagOps E M] [MagOps E' M] {ψ : E → E'} [ExpLift ψ] [FieldLift ψ] [TextLift M ψ]

theorem carried_mapEx (p : Defs E M) : CarriedDefs ψ p (p.mapEx ψ id) := ⟨rfl, rfl, rfl, rfl, rfl, rfl⟩

theorem unitSystem_release [ExHom (M := M) (M' := M) ψ id] (hrat : ReadExponent.rational E' = ReadExponent.rational E)
    (hr : ∀ x n, ReadExponent.read x = some n → ReadExponent.read x = some (ψ n)) (mag : Number → M) (factor : Prefix → M) (ts : List Tok)
    (d : Defs E M) (errors : List Diag) (h : unitSystem mag factor ts = .done (d, errors)) :
    ∃ d' : Defs E' M, unitSystem mag factor ts = .done (d', errors) ∧ CarriedDefs ψ d d' := by
  unfold unitSystem at h ⊢
  rw [hrat]
  cases hp : parseSystem (ReadExponent.rational E) ts with
  | none => rw [hp] at h; cases h
  | some t =>
    rw [hp] at h
    simp only at h ⊢
    cases ht : (readTemplates mag t : Option (UnresolvedTemplates E M)) with
    | none => rw [ht] at h; cases h
    | some t' =>
      rw [ht] at h
      have h2 := readTemplates_lift (ψ := ψ) hr mag id t t' ht
      rw [Function.id_comp] at h2
      rw [h2]
      simp only at h ⊢
      cases hd : runUnitSystem factor t' with
      | none => rw [hd] at h; cases h
      | some r =>
        rw [hd] at h
        simp only [MacroResult.done.injEq] at h
        subst h
        have h3 := runUnitSystem_lift (ψ := ψ) (φ := id) hd
        rw [Function.id_comp] at h3
        rw [h3]
        exact ⟨_, rfl, carried_mapEx _⟩

end

section
variable {E E' M : Type} [FieldOps E] [FieldOps E'] [DecidableEq E] [DecidableEq E'] {ψ : E → E'} [FieldLift ψ]

theorem run_carry {K : Type} [Prims K M] {n : Nat} {f : Fn E} {tys : List (Ty E)} {args : List (Val K M)} {v : Val K M} (h : f.run n tys args = some v) :
    (f.carry ψ).run n (tys.map (Ty.carry ψ)) args = some v := by
  unfold Fn.run at h ⊢
  split at h
  · simp at h
  · rename_i hs
    obtain ⟨t, ht⟩ := Option.isSome_iff_exists.1 (show (f.sig n tys).isSome = true by cases hq : f.sig n tys <;> simp_all)
    rw [if_neg (by rw [sig_carry ht]; simp), storageOf_carry, body_carry]
    exact h
end

instance exHom_release {M : Type} [MagOps Int M] : ExHom (M := M) (M' := M) asRelease id := ⟨rfl, fun _ _ => rfl, fun _ _ => rfl, fun _ _ => rfl⟩
instance exHom_releaseRatio {M : Type} [MagOps Ratio M] : ExHom (M := M) (M' := M) Ratio.asRelease id := ⟨rfl, fun _ _ => rfl, fun _ _ => rfl, fun _ _ => rfl⟩

/-! ### The macro -/

/-- **C56, definitions.** Whatever the macro makes of its argument in a dev build, it makes of it in a release build: the same errors, and the same
dimensions, units and constants in the same order, with the same exponents and the same conversion factors. -/
theorem C56_system {M : Type} [MagOps Int M] (mag : Number → M) (factor : Prefix → M) (ts : List Tok)
    (d : Defs Int M) (errors : List Diag) (h : unitSystem mag factor ts = .done (d, errors)) :
    ∃ d' : Defs RelInt M, unitSystem mag factor ts = .done (d', errors) ∧ CarriedDefs asRelease d d' :=
  unitSystem_release (ψ := asRelease) rfl (fun _ _ h => read_rel h) mag factor ts d errors h

/-- **C56, definitions**, with the feature `rational-dimensions`. -/
theorem C56_system_rational {M : Type} [MagOps Ratio M] (mag : Number → M) (factor : Prefix → M) (ts : List Tok)
    (d : Defs Ratio M) (errors : List Diag) (h : unitSystem mag factor ts = .done (d, errors)) :
    ∃ d' : Defs RelRatio M, unitSystem mag factor ts = .done (d', errors) ∧ CarriedDefs Ratio.asRelease d d' :=
  unitSystem_release (ψ := Ratio.asRelease) rfl (fun _ _ h => read_relRatio h) mag factor ts d errors h

/-- **C56, syntax.** The same texts are syntax errors in both profiles. -/
theorem C56_syntax {M : Type} [MagOps Int M] [MagOps Ratio M] (mag : Number → M) (factor : Prefix → M) (ts : List Tok) :
    (unitSystem mag factor ts = (.syntaxError : MacroResult (Defs Int M × List Diag)) ↔
      unitSystem mag factor ts = (.syntaxError : MacroResult (Defs RelInt M × List Diag))) ∧
    (unitSystem mag factor ts = (.syntaxError : MacroResult (Defs Ratio M × List Diag)) ↔
      unitSystem mag factor ts = (.syntaxError : MacroResult (Defs RelRatio M × List Diag))) := by
  have key : ∀ (E M : Type) [Exponent E] [ReadExponent E] [MagOps E M] (mag : Number → M) (factor : Prefix → M),
      unitSystem mag factor ts = (.syntaxError : MacroResult (Defs E M × List Diag)) ↔ parseSystem (ReadExponent.rational E) ts = none := by
    intro E M _ _ _ mag factor
    unfold unitSystem
    cases parseSystem (ReadExponent.rational E) ts with
    | none => simp
    | some t =>
      simp only [reduceCtorEq, iff_false]
      split
      · simp
      · split <;> simp
  exact ⟨by rw [key, key]; rfl, by rw [key, key]; rfl⟩

/-- **C56, no panic.** In a release build without `rational-dimensions` the macro panics on no text. -/
theorem C56_no_panic {M : Type} [MagOps Int M] (mag : Number → M) (factor : Prefix → M) (ts : List Tok) :
    unitSystem mag factor ts ≠ (.panic : MacroResult (Defs RelInt M × List Diag)) := by
  unfold unitSystem
  cases parseSystem (ReadExponent.rational RelInt) ts with
  | none => simp
  | some t =>
    simp only
    obtain ⟨t', ht⟩ := Option.isSome_iff_exists.1 (readTemplates_isSome (E := RelInt) mag t fun x _ => rfl)
    rw [ht]
    simp only
    cases hr : runUnitSystem factor t' with
    | some r => simp
    | none =>
      exfalso
      obtain ⟨e, -, value, he⟩ := C09_only_overflow_panics factor t' hr
      have hadd : ∀ (a : Dims RelInt) k v, ∃ c, a.addEntry k v = some c := by
        intro a k v
        induction a with
        | nil => exact ⟨_, rfl⟩
        | cons x a ih =>
          obtain ⟨c, hc⟩ := ih
          unfold Dims.addEntry
          split
          · exact ⟨_, rfl⟩
          · rw [hc]; exact ⟨_, rfl⟩
      have hmul : ∀ (a b : Dims RelInt), ∃ c, a.mul b = some c := by
        intro a b
        induction b generalizing a with
        | nil => exact ⟨_, rfl⟩
        | cons x b ih =>
          obtain ⟨c, hc⟩ := hadd a x.1 x.2
          unfold Dims.mul
          rw [hc]; exact ih c
      have hinv : ∀ a : Dims RelInt, ∃ c, a.inv = some c := by
        intro a
        induction a with
        | nil => exact ⟨_, rfl⟩
        | cons x a ih => obtain ⟨c, hc⟩ := ih; unfold Dims.inv; rw [hc]; exact ⟨_, rfl⟩
      have hpow : ∀ p (a : Dims RelInt), ∃ c, a.pow p = some c := by
        intro p a
        induction a with
        | nil => exact ⟨_, rfl⟩
        | cons x a ih => obtain ⟨c, hc⟩ := ih; unfold Dims.pow; rw [hc]; exact ⟨_, rfl⟩
      have tot : ∀ e : Expr (DM RelInt M) RelInt, ∃ v, e.eval = some v := by
        intro e
        refine Expr.rec (motive_1 := fun e => ∃ v, e.eval = some v) (motive_2 := fun f => ∃ v, f.eval = some v) ?_ ?_ ?_ ?_ ?_ e
        · intro f h; exact h
        · rintro l o r ⟨a, ha⟩ ⟨b, hb⟩
          unfold Expr.eval
          rw [ha, hb]
          cases o
          · obtain ⟨c, hc⟩ := hmul a.dims b.dims
            exact ⟨_, by simp only [MulDiv.mul, Option.bind_eq_bind, Option.bind_some, hc]; rfl⟩
          · obtain ⟨b', hb'⟩ := hinv b.dims
            obtain ⟨c, hc⟩ := hmul a.dims b'
            exact ⟨_, by simp only [MulDiv.div, Dims.div, Option.bind_eq_bind, Option.bind_some, hb', hc]; rfl⟩
        · intro v; exact ⟨v, rfl⟩
        · intro v p
          obtain ⟨c, hc⟩ := hpow p v.dims
          exact ⟨_, by simp only [Factor.eval, MulDiv.pow, Option.bind_eq_bind, hc]; rfl⟩
        · intro e h; exact h
      obtain ⟨v, hv⟩ := tot _
      rw [hv] at he
      cases he

/-! ### The generated code -/

/-- **C56, types.** The type of every dimension, unit and constant is the same: the struct expression the macro writes for it has the same value. -/
theorem C56_types (bd : List Str) :
    (∀ (d : Dims Int) v, dimensionExpr bd d = some v → dimensionExpr bd (d.carry asRelease) = some (v.map asRelease)) ∧
    (∀ (d : Dims Ratio) v, dimensionExpr bd d = some v → dimensionExpr bd (d.carry Ratio.asRelease) = some (v.map Ratio.asRelease)) :=
  ⟨fun _ _ h => dimensionExpr_carry h, fun _ _ h => dimensionExpr_carry h⟩

/-- **C56, operators.** Every operator of the dev build exists in the release build, between the same types and with the same outcome. -/
theorem C56_operators (ss : List Storage) (n : Nat) (t : Trait) :
    (∀ (l r : OpTy Int) out, OpTyped ss n t l r out → OpTyped ss n t (l.carry asRelease) (r.carry asRelease) (out.carry asRelease)) ∧
    (∀ (l r : OpTy Ratio) out, OpTyped ss n t l r out → OpTyped ss n t (l.carry Ratio.asRelease) (r.carry Ratio.asRelease) (out.carry Ratio.asRelease)) :=
  ⟨fun _ _ _ h => (C20_exactly _ _ _ _ _ _).2 (exists_carry ((C20_exactly _ _ _ _ _ _).1 h)),
   fun _ _ _ h => (C20_exactly _ _ _ _ _ _).2 (exists_carry ((C20_exactly _ _ _ _ _ _).1 h))⟩

/-- **C56, functions.** So does every generated function, with the same result type … -/
theorem C56_functions (n : Nat) :
    (∀ (f : Fn Int) args t, f.sig n args = some t → (f.carry asRelease).sig n (args.map (Ty.carry asRelease)) = some (t.carry asRelease)) ∧
    (∀ (f : Fn Ratio) args t, f.sig n args = some t →
      (f.carry Ratio.asRelease).sig n (args.map (Ty.carry Ratio.asRelease)) = some (t.carry Ratio.asRelease)) :=
  ⟨fun _ _ _ h => sig_carry h, fun _ _ _ h => sig_carry h⟩

/-- **C56, values.** … and it computes the same value. -/
theorem C56_values {K M : Type} [Prims K M] (n : Nat) (args : List (Val K M)) (v : Val K M) :
    (∀ (f : Fn Int) tys, f.run n tys args = some v → (f.carry asRelease).run n (tys.map (Ty.carry asRelease)) args = some v) ∧
    (∀ (f : Fn Ratio) tys, f.run n tys args = some v → (f.carry Ratio.asRelease).run n (tys.map (Ty.carry Ratio.asRelease)) args = some v) :=
  ⟨fun _ _ h => run_carry h, fun _ _ h => run_carry h⟩

/-- **C56, text.** With the same definitions, a quantity that prints in the dev build prints the same text in the release build, and a value that
deserialises, or is refused, without panic in the dev build has the same fate in the release build. -/
theorem C56_text {K M : Type} [MagOps Int M] [Prims K M] [TextPrims K M] (d : Defs Int M) (d' : Defs RelInt M) (same : CarriedDefs asRelease d d')
    (dim : DimVal Int) :
    (∀ value t, debugFmt K d dim value = some t → debugFmt K d' (dim.map asRelease) value = some t) ∧
    (∀ (s : Storage) (r : Raw K) t, serializeStr M d s dim r = some t → serializeStr M d' s (dim.map asRelease) r = some t) ∧
    (∀ (s : Storage) (v : SerdeValue K) o, deserialize M d s dim v = some o → o ≠ .panic → deserialize M d' s (dim.map asRelease) v = some o) := by
  refine ⟨fun v t h => debugFmt_carry same h, fun s r t h => ?_, fun s v o h ho => deserialize_carry same h ho⟩
  unfold serializeStr at h ⊢
  split at h <;> rename_i hs
  · rw [if_pos hs]; exact debugFmt_carry same h
  · rw [if_neg hs]
    obtain ⟨x, hx, rfl⟩ := Option.map_eq_some_iff.1 h
    rw [debugFmt_carry same hx]; rfl

/-- **C56, text**, with the feature `rational-dimensions`. -/
theorem C56_text_rational {K M : Type} [MagOps Ratio M] [Prims K M] [TextPrims K M] (d : Defs Ratio M) (d' : Defs RelRatio M)
    (same : CarriedDefs Ratio.asRelease d d') (dim : DimVal Ratio) :
    (∀ value t, debugFmt K d dim value = some t → debugFmt K d' (dim.map Ratio.asRelease) value = some t) ∧
    (∀ (s : Storage) (r : Raw K) t, serializeStr M d s dim r = some t → serializeStr M d' s (dim.map Ratio.asRelease) r = some t) ∧
    (∀ (s : Storage) (v : SerdeValue K) o, deserialize M d s dim v = some o → o ≠ .panic → deserialize M d' s (dim.map Ratio.asRelease) v = some o) := by
  refine ⟨fun v t h => debugFmt_carry same h, fun s r t h => ?_, fun s v o h ho => deserialize_carry same h ho⟩
  unfold serializeStr at h ⊢
  split at h <;> rename_i hs
  · rw [if_pos hs]; exact debugFmt_carry same h
  · rw [if_neg hs]
    obtain ⟨x, hx, rfl⟩ := Option.map_eq_some_iff.1 h
    rw [debugFmt_carry same hx]; rfl

/-! ### Where they differ -/

/-- **C56, modulo.** What the release build makes of a unit system it accepts: all exponents are `i64`s, and they are the exponents the statements
prescribe over the unbounded integers, up to multiples of 2^64. -/
theorem C56_modulo {M : Type} [MagOps Int M] (factor : Prefix → M) (t : UnresolvedTemplates RelInt M) (defs : Defs RelInt M)
    (accepted : runUnitSystem factor t = some (defs, [])) (ρ : Str → Str → Int)
    (prescribed : (UnresolvedTemplates.expand (MagOps.one RelInt) factor t).Prescribes ρ) :
    (∀ D ∈ defs.dimensions, D.dims.Wrapped (ρ D.name)) ∧ (∀ U ∈ defs.units, U.dims.Wrapped (ρ U.name)) ∧
    (∀ C ∈ defs.constants, C.dims.Wrapped (ρ C.name)) := by
  obtain ⟨res, h⟩ := accepted_of_run accepted
  exact accepted_modulo h prescribed

/-- **C56, modulo**, for the dimensions of products, quotients, inverses and powers of quantities. -/
theorem C56_modulo_types (a b c : Int) :
    ((FieldOps.add (asRelease a) (asRelease b) = some (asRelease c)) ↔ IsI64 c ∧ c ≡ a + b [ZMOD 18446744073709551616]) ∧
    ((FieldOps.sub (asRelease a) (asRelease b) = some (asRelease c)) ↔ IsI64 c ∧ c ≡ a - b [ZMOD 18446744073709551616]) ∧
    ((FieldOps.neg (asRelease a) = some (asRelease c)) ↔ IsI64 c ∧ c ≡ -a [ZMOD 18446744073709551616]) ∧
    ((FieldOps.mul (asRelease a) b = some (asRelease c)) ↔ IsI64 c ∧ c ≡ a * b [ZMOD 18446744073709551616]) := by
  have key : ∀ x, some (⟨wrap64 x⟩ : RelInt) = some (asRelease c) ↔ IsI64 c ∧ c ≡ x [ZMOD 18446744073709551616] := by
    intro x
    simp only [asRelease, Option.some.injEq, RelInt.mk.injEq]
    constructor
    · rintro rfl; exact ⟨wrap64_isI64 x, wrap64_modEq x⟩
    · rintro ⟨h1, h2⟩
      have h3 := wrap64_isI64 x
      have h4 := wrap64_modEq x
      unfold IsI64 i64Min i64Max at h1 h3
      unfold Int.ModEq at h2 h4
      omega
  exact ⟨key _, key _, key _, key _⟩

/-- Exponents that overflow. -/
def overflowText : List Str :=
  [str!"    quantity_type Quantity;",
   str!"    dimension_type Dimension;",
   str!"    dimension Length;",
   str!"    dimension Huge = Length^4611686018427387904;",
   str!"    dimension Wrapped = Huge^4;",
   str!"    #[base(Length)]",
   str!"    #[symbol(m)]",
   str!"    unit meters;"]

/-- What the macro makes of the text when conversion factors are forgotten: the dimensions, if it ends without errors; `none` if it panics. -/
def outcomeOf (E : Type) [Exponent E] [ReadExponent E] (ts : List Tok) : Option (Option (List (Str × Dims E))) :=
  match unitSystem (E := E) (M := Unit) (fun _ => ()) (fun _ => ()) ts with
  | .done (d, []) => some (some (d.dimensions.map fun x => (x.name, x.dims)))
  | .panic => some none
  | _ => none

theorem outcome_any {E M : Type} [Exponent E] [ReadExponent E] [MagOps E M] (mag : Number → M) (factor : Prefix → M) {ts : List Tok} {o : Option (List (Str × Dims E))}
    (h : outcomeOf E ts = some o) :
    match o with
    | none => unitSystem mag factor ts = (.panic : MacroResult (Defs E M × List Diag))
    | some l => ∃ d : Defs E M, unitSystem mag factor ts = .done (d, []) ∧ d.dimensions.map (fun x => (x.name, x.dims)) = l := by
  have hm : MagHom E (fun _ : M => ()) := ⟨rfl, fun _ _ => rfl, fun _ _ => rfl, fun _ _ => rfl⟩
  have := unitSystem_mapMag (E := E) (fun _ : M => ()) mag factor ts
  unfold outcomeOf at h
  rw [show (fun _ : Number => ()) = (fun _ : M => ()) ∘ mag from rfl, show (fun _ : Prefix => ()) = (fun _ : M => ()) ∘ factor from rfl, this] at h
  cases hu : (unitSystem mag factor ts : MacroResult (Defs E M × List Diag)) with
  | syntaxError => rw [hu] at h; simp at h
  | panic => rw [hu] at h; simp only [Option.some.injEq] at h; subst h; rfl
  | done r =>
    obtain ⟨d, es⟩ := r
    rw [hu] at h
    cases es with
    | nil =>
      simp only [Option.some.injEq] at h
      subst h
      refine ⟨d, rfl, ?_⟩
      rfl
    | cons => simp at h

/-- **C56, the finding.** Exponents that overflow make the macro panic in a dev build; the release build accepts the same text without any error,
and the dimension of exponent 2^64 becomes the dimensionless type. -/
theorem C56_wraps : ∃ ts, lex overflowText = some ts ∧ ∀ (M : Type) [MagOps Int M] (mag : Number → M) (factor : Prefix → M),
    unitSystem mag factor ts = (.panic : MacroResult (Defs Int M × List Diag)) ∧
    ∃ d : Defs RelInt M, unitSystem mag factor ts = .done (d, []) ∧
      d.dimensions.map (fun x => (x.name, x.dims)) =
        [(str!"Huge", [(str!"length", ⟨4611686018427387904⟩)]), (str!"Length", [(str!"length", ⟨1⟩)]), (str!"Wrapped", [(str!"length", ⟨0⟩)])] ∧
      dimensionExpr [str!"length"] [(str!"length", (⟨0⟩ : RelInt))] = some (DimVal.none 1) := by
  obtain ⟨ts, hts⟩ := Option.isSome_iff_exists.1 (show (lex overflowText).isSome = true by decide +kernel)
  refine ⟨ts, hts, fun M _ mag factor => ⟨?_, ?_⟩⟩
  · have h : (lex overflowText).bind (outcomeOf Int) = some none := by decide +kernel
    rw [hts] at h
    exact outcome_any mag factor h
  · have h : (lex overflowText).bind (outcomeOf RelInt) =
        some (some [(str!"Huge", [(str!"length", ⟨4611686018427387904⟩)]), (str!"Length", [(str!"length", ⟨1⟩)]), (str!"Wrapped", [(str!"length", ⟨0⟩)])]) := by decide +kernel
    rw [hts] at h
    obtain ⟨d, h1, h2⟩ := outcome_any mag factor h
    exact ⟨d, h1, h2, by decide +kernel⟩

/-- **C56, the finding, in the generated code.** The square of a quantity whose dimension has exponent 2^63 - 1 has no type in a dev build (a compile
error); in a release build it has exponent -2. With `rational-dimensions`, the square root of a dimension with exponent 1/(2^63 - 1) gets exponent -1/2. -/
theorem C56_wraps_types :
    (Fn.squared : Fn Int).sig 1 [.quantity .f64 [i64Max]] = none ∧
    (Fn.squared : Fn RelInt).sig 1 [.quantity .f64 [asRelease i64Max]] = some (.quantity .f64 [asRelease (-2)]) ∧
    (Fn.sqrt : Fn Ratio).sig 1 [.quantity .f64 [⟨1, 9223372036854775807⟩]] = none ∧
    (Fn.sqrt : Fn RelRatio).sig 1 [.quantity .f64 [⟨1, 9223372036854775807⟩]] = some (.quantity .f64 [⟨1, -2⟩]) := by
  refine ⟨?_, ?_, ?_, ?_⟩ <;> decide +kernel

/-! ### Concrete cases -/

/-- `C56_system`: a text the macro accepts. -/
def areaText : List Str :=
  [str!"    quantity_type Quantity;",
   str!"    dimension_type Dimension;",
   str!"    dimension Length;",
   str!"    dimension Time;",
   str!"    dimension Acceleration = Length / Time^2;",
   str!"    #[base(Length)]",
   str!"    #[symbol(m)]",
   str!"    unit meters;",
   str!"    #[base(Time)]",
   str!"    #[symbol(s)]",
   str!"    unit seconds;"]

example : (lex areaText).bind (outcomeOf Int) = some (some
      [(str!"Acceleration", [(str!"length", 1), (str!"time", -2)]), (str!"Length", [(str!"length", 1)]), (str!"Time", [(str!"time", 1)])]) ∧
    (lex areaText).bind (outcomeOf RelInt) = some (some
      [(str!"Acceleration", [(str!"length", ⟨1⟩), (str!"time", ⟨-2⟩)]), (str!"Length", [(str!"length", ⟨1⟩)]), (str!"Time", [(str!"time", ⟨1⟩)])]) := by
  constructor <;> decide +kernel

/-- `C56_operators`, `C56_functions`: a length times an area; the root of an area. -/
example : OpTyped [.f64] 1 .mul ⟨.value, .quantity .f64 [(1 : Int)]⟩ ⟨.ref, .quantity .f64 [2]⟩ (.value (.quantity .f64 [3])) ∧
    (Fn.sqrt : Fn Int).sig 1 [.quantity .f64 [2]] = some (.quantity .f64 [1]) :=
  ⟨(C20_exactly _ _ _ _ _ _).2 ⟨.f64, rfl, ⟨by decide, by decide⟩, [3], by decide +kernel, rfl⟩, by decide +kernel⟩

/-- The system of `C56_wraps`, as parsed. -/
def overflowSystem : UnresolvedTemplates RelInt Unit :=
  ⟨[str!"Dimension"], [str!"Quantity"],
   [⟨str!"Length", .base ()⟩, ⟨str!"Huge", .expression (.value (.power (.other (str!"Length")) ⟨4611686018427387904⟩))⟩,
    ⟨str!"Wrapped", .expression (.value (.power (.other (str!"Huge")) ⟨4⟩))⟩],
   [⟨str!"meters", some (str!"m"), [], [], none, .base (str!"Length")⟩], []⟩

/-- `C56_modulo`: it is accepted, and there are prescribed exponents; that of `Wrapped` is 2^64. -/
example : (∃ defs, runUnitSystem (fun _ => ()) overflowSystem = some (defs, [])) ∧
    ∃ ρ : Str → Str → Int, (UnresolvedTemplates.expand () (fun _ => ()) overflowSystem).Prescribes ρ ∧ ρ (str!"Wrapped") (str!"length") = 18446744073709551616 := by
  constructor
  · have h : ((runUnitSystem (fun _ => ()) overflowSystem).map fun p => p.2) = some [] := by decide +kernel
    obtain ⟨p, hp, h⟩ := Option.map_eq_some_iff.1 h
    exact ⟨p.1, by rw [hp, ← h]⟩
  · refine ⟨fun x k => if k = str!"length" then (if x = str!"Huge" then 4611686018427387904 else if x = str!"Wrapped" then 18446744073709551616 else 1) else 0,
      ⟨fun d hd k => ?_, fun x hx k => ?_, fun c hc k => ?_⟩, by decide⟩
    · have hd : d ∈ overflowSystem.dimensions := hd
      simp only [overflowSystem, List.mem_cons, List.not_mem_nil, or_false] at hd
      rcases hd with rfl | rfl | rfl
      · rw [show toSnakecase (str!"Length") = str!"length" by decide +kernel]
        rfl
      · by_cases hk : k = str!"length"
        · subst hk; decide +kernel
        · simp [Expr.exactPower, Factor.exactPower, Atom.power, hk]
      · by_cases hk : k = str!"length"
        · subst hk; decide +kernel
        · simp [Expr.exactPower, Factor.exactPower, Atom.power, hk]
    · have hx : x ∈ [(⟨str!"meters", some (str!"m"), none, .base (str!"Length"), none⟩ : UnitEntry RelInt Unit)] := hx
      simp only [List.mem_cons, List.not_mem_nil, or_false] at hx
      subst hx
      rfl
    · exact absurd hc List.not_mem_nil

end Diman
