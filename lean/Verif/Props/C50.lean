import Verif.Proofs.RationalText
import Verif.Props.C20
import Verif.Model.Lexer
import Verif.Proofs.Estimate
import Verif.Examples.Sample
/-!
# C50 — `rational-dimensions` supports a superset
`unitSystem` at exponent type `Int` is the macro built without the feature, at `Ratio` the macro built with it. `SameDefinitions`, `SameFactors`,
`SameArithmetic`, `asRatio`: `Verif/Spec/Rational.lean`.
-/
namespace Diman

section
variable {M M' : Type} [MagOps Int M] [MagOps Ratio M']

/-- **C50, definitions.** Whatever the integer build makes of a macro argument, the build with fractions does too: it reports the same errors
and defines the same dimensions, units and constants, in the same order, with every exponent `n` as `n/1`. This holds for any two ways of
calculating with conversion factors. -/
theorem C50_definitions (mag : Number → M) (factor : Prefix → M) (mag' : Number → M') (factor' : Prefix → M') (ts : List Tok)
    (d : Defs Int M) (errors : List Diag) (h : unitSystem mag factor ts = .done (d, errors)) :
    ∃ d' : Defs Ratio M', unitSystem mag' factor' ts = .done (d', errors) ∧ SameDefinitions d d' := by
  rcases both_builds mag factor mag' factor' ts with h0 | ⟨o, h1, h2⟩
  · rw [h0] at h; cases h
  · rw [h1] at h
    cases o with
    | none => cases h
    | some p =>
      simp only [MacroResult.done.injEq, Prod.mk.injEq] at h
      obtain ⟨rfl, rfl⟩ := h
      exact ⟨_, h2, sameDefinitions_mapEx _ _ _⟩

/-- **C50, failures.** Text that is a syntax error for the build with fractions is one for the integer build, and where the integer build
panics, so does the build with fractions. -/
theorem C50_failures (mag : Number → M) (factor : Prefix → M) (mag' : Number → M') (factor' : Prefix → M') (ts : List Tok) :
    (unitSystem mag' factor' ts = (.syntaxError : MacroResult (Defs Ratio M' × List Diag)) →
      unitSystem mag factor ts = (.syntaxError : MacroResult (Defs Int M × List Diag))) ∧
    (unitSystem mag factor ts = (.panic : MacroResult (Defs Int M × List Diag)) →
      unitSystem mag' factor' ts = (.panic : MacroResult (Defs Ratio M' × List Diag))) := by
  rcases both_builds mag factor mag' factor' ts with h0 | ⟨o, h1, h2⟩
  · exact ⟨fun _ => h0, fun h => by rw [h0] at h; cases h⟩
  · rw [h1, h2]
    cases o with
    | none => exact ⟨fun h => by (cases h), fun _ => rfl⟩
    | some p => exact ⟨fun h => by (cases h), fun h => by (cases h)⟩

/-- **C50, types.** … and each dimension, unit and constant has the corresponding type in the generated code (or the struct expression
written for it compiles in neither build). -/
theorem C50_types (mag : Number → M) (factor : Prefix → M) (mag' : Number → M') (factor' : Prefix → M') (ts : List Tok)
    (d : Defs Int M) (errors : List Diag) (h : unitSystem mag factor ts = .done (d, errors)) (d' : Defs Ratio M') (errors' : List Diag)
    (h' : unitSystem mag' factor' ts = .done (d', errors')) :
    List.Forall₂ (fun x y => dimensionExpr d'.baseDimensions y.dims = (dimensionExpr d.baseDimensions x.dims).map (List.map asRatio)) d.dimensions d'.dimensions ∧
    List.Forall₂ (fun x y => dimensionExpr d'.baseDimensions y.dims = (dimensionExpr d.baseDimensions x.dims).map (List.map asRatio)) d.units d'.units ∧
    List.Forall₂ (fun x y => dimensionExpr d'.baseDimensions y.dims = (dimensionExpr d.baseDimensions x.dims).map (List.map asRatio)) d.constants d'.constants := by
  have key : ∀ (bd : List Str) (e : Dims I64), dimensionExpr bd (e.mapPow I64.ratio) = (dimensionExpr bd (e.mapPow I64.val)).map (List.map asRatio) := by
    intro bd e; rw [mapPow_asRatio, dimensionExpr_asRatio (mapPow_isI64 _)]
  rcases both_builds mag factor mag' factor' ts with h0 | ⟨o, h1, h2⟩
  · rw [h0] at h; cases h
  · rw [h1] at h
    rw [h2] at h'
    cases o with
    | none => cases h
    | some p =>
      simp only [MacroResult.done.injEq, Prod.mk.injEq] at h h'
      obtain ⟨rfl, rfl⟩ := h
      obtain ⟨rfl, rfl⟩ := h'
      refine ⟨?_, ?_, ?_⟩
      · show List.Forall₂ _ (p.1.dimensions.map _) (p.1.dimensions.map _)
        rw [List.forall₂_map_left_iff, List.forall₂_map_right_iff, List.forall₂_same]
        exact fun x _ => key _ _
      · show List.Forall₂ _ (p.1.units.map _) (p.1.units.map _)
        rw [List.forall₂_map_left_iff, List.forall₂_map_right_iff, List.forall₂_same]
        exact fun x _ => key _ _
      · show List.Forall₂ _ (p.1.constants.map _) (p.1.constants.map _)
        rw [List.forall₂_map_left_iff, List.forall₂_map_right_iff, List.forall₂_same]
        exact fun x _ => key _ _
end

section
variable {M : Type} [MagOps Int M] [MagOps Ratio M]

/-- **C50, conversion factors.** If both builds calculate with conversion factors in the same way, all factors are the same. -/
theorem C50_factors (arithmetic : SameArithmetic M) (mag : Number → M) (factor : Prefix → M) (ts : List Tok)
    (d : Defs Int M) (errors : List Diag) (h : unitSystem mag factor ts = .done (d, errors)) :
    ∃ d' : Defs Ratio M, unitSystem mag factor ts = .done (d', errors) ∧ SameDefinitions d d' ∧ SameFactors d d' := by
  rcases both_builds_same arithmetic mag factor ts with h0 | ⟨o, h1, h2⟩
  · rw [h0] at h; cases h
  · rw [h1] at h
    cases o with
    | none => cases h
    | some p =>
      simp only [MacroResult.done.injEq, Prod.mk.injEq] at h
      obtain ⟨rfl, rfl⟩ := h
      refine ⟨_, h2, sameDefinitions_mapEx _ _ _, ?_, ?_⟩
      · show List.Forall₂ _ (p.1.units.map _) (p.1.units.map _)
        rw [List.forall₂_map_left_iff, List.forall₂_map_right_iff, List.forall₂_same]
        exact fun x _ => rfl
      · show List.Forall₂ _ (p.1.constants.map _) (p.1.constants.map _)
        rw [List.forall₂_map_left_iff, List.forall₂_map_right_iff, List.forall₂_same]
        exact fun x _ => rfl

/-- **C50, text.** … and a quantity prints the same text and deserialises from any value to the same result, in every storage type and
dimension. -/
theorem C50_text {K : Type} [Prims K M] [TextPrims K M] (arithmetic : SameArithmetic M) (mag : Number → M) (factor : Prefix → M)
    (ts : List Tok) (d : Defs Int M) (errors : List Diag) (h : unitSystem mag factor ts = .done (d, errors))
    (d' : Defs Ratio M) (errors' : List Diag) (h' : unitSystem mag factor ts = .done (d', errors')) (dim : DimVal Int) :
    (∀ value : Str, debugFmt K d' (dim.map asRatio) value = debugFmt K d dim value) ∧
    (∀ (s : Storage) (r : Raw K), serializeStr M d' s (dim.map asRatio) r = serializeStr M d s dim r) ∧
    (∀ (s : Storage) (v : SerdeValue K), deserialize M d' s (dim.map asRatio) v = deserialize M d s dim v) := by
  rcases both_builds_same arithmetic mag factor ts with h0 | ⟨o, h1, h2⟩
  · rw [h0] at h; cases h
  · rw [h1] at h
    rw [h2] at h'
    cases o with
    | none => cases h
    | some p =>
      simp only [MacroResult.done.injEq, Prod.mk.injEq] at h h'
      obtain ⟨rfl, rfl⟩ := h
      obtain ⟨rfl, rfl⟩ := h'
      refine ⟨fun v => debugFmt_asRatio arithmetic p.1 dim v, fun s r => ?_, fun s v => deserialize_asRatio arithmetic p.1 s dim v⟩
      unfold serializeStr
      rw [debugFmt_asRatio arithmetic p.1 dim]
end

/-- **C50, operators.** Every operator between quantities and numbers of the integer build exists in the build with fractions, between the
corresponding types and with the corresponding outcome, if no exponent of an operand is `i64::MIN`. -/
theorem C50_operators (ss : List Storage) (n : Nat) (t : Trait) (l r : OpTy Int) (out : OpOut Int) (hl : l.ty.Moderate) (hr : r.ty.Moderate)
    (h : OpTyped ss n t l r out) : OpTyped ss n t l.asRatio r.asRatio out.asRatio :=
  (C20_exactly _ _ _ _ _ _).2 (exists_asRatio hl hr ((C20_exactly _ _ _ _ _ _).1 h))

/-- **C50, functions.** So does every generated function, with the corresponding result type … -/
theorem C50_functions (n : Nat) (f : Fn Int) (args : List (Ty Int)) (t : Ty Int) (hargs : ∀ a ∈ args, a.Moderate) (h : f.sig n args = some t) :
    f.asRatio.sig n (args.map Ty.asRatio) = some t.asRatio := sig_asRatio hargs h

/-- **C50, values.** … and it computes the same value. -/
theorem C50_values {K M : Type} [Prims K M] (n : Nat) (f : Fn Int) (tys : List (Ty Int)) (hargs : ∀ a ∈ tys, a.Moderate) (args : List (Val K M))
    (v : Val K M) (h : f.run n tys args = some v) : f.asRatio.run n (tys.map Ty.asRatio) args = some v := by
  unfold Fn.run at h ⊢
  split at h
  · simp at h
  · rename_i hs
    obtain ⟨t, ht⟩ := Option.isSome_iff_exists.1 (show (f.sig n tys).isSome = true by cases hq : f.sig n tys <;> simp_all)
    rw [if_neg (by rw [sig_asRatio hargs ht]; simp), storageOf_asRatio, body_asRatio]
    exact h

/-! ### The side condition, and why it is a superset and not the same -/

/-- **C50, the limit.** Without the condition on `i64::MIN` the claim is false: a number `s`-typed quantity whose dimension has exponent `-1`,
divided by one with exponent `i64::MIN`, has a dimension in the integer build, but the build with fractions negates the divisor first, which overflows
(ratio.rs:58-60 against dimension_type.rs:88-92). -/
theorem C50_limit : ∃ l r out, OpTyped [.f64] 1 .div l r out ∧ ∀ out', ¬ OpTyped (E := Ratio) [.f64] 1 .div l.asRatio r.asRatio out' := by
  refine ⟨⟨.value, .quantity .f64 [-1]⟩, ⟨.value, .quantity .f64 [i64Min]⟩, .value (.quantity .f64 [i64Max]), ?_, ?_⟩
  · refine (C20_exactly _ _ _ _ _ _).2 ⟨.f64, rfl, ⟨by decide, by decide⟩, [i64Max], by decide +kernel, rfl⟩
  · intro out' h
    obtain ⟨s, -, -, d, hd, -⟩ := (C20_exactly _ _ _ _ _ _).1 h
    revert hd
    rw [show DimVal.sub ([-1].map asRatio) ([i64Min].map asRatio) = none by decide +kernel]
    simp

/-- The unit system of tests/rational_dimensions/mod.rs:1-19 (verbatim). -/
def sorptivityText : List Str :=
  [str!"    quantity_type Quantity;",
   str!"    dimension_type Dimension;",
   str!"    dimension Length;",
   str!"    dimension Time;",
   str!"    dimension Sorptivity = Length Time^(-1/2);",
   str!"",
   str!"    #[base(Time)]",
   str!"    #[prefix(milli)]",
   str!"    #[symbol(s)]",
   str!"    unit seconds;",
   str!"",
   str!"    #[base(Length)]",
   str!"    #[prefix(micro)]",
   str!"    #[symbol(m)]",
   str!"    unit meters;",
   str!"",
   str!"    unit meters_per_sqrt_second: Sorptivity = meters / seconds^(1/2);"]

/-- What the macro reports when the numbers are forgotten; `none`: syntax error or panic. -/
def reported (E : Type) [Exponent E] [ReadExponent E] (ts : List Tok) : Option (List Diag) :=
  match unitSystem (E := E) (M := Unit) (fun _ => ()) (fun _ => ()) ts with
  | .done r => some r.2
  | _ => none

theorem done_of_reported {E M : Type} [Exponent E] [ReadExponent E] [MagOps E M] (mag : Number → M) (factor : Prefix → M) {ts : List Tok} {errors : List Diag}
    (h : reported E ts = some errors) : ∃ d : Defs E M, unitSystem mag factor ts = .done (d, errors) := by
  have hm : MagHom E (fun _ : M => ()) := ⟨rfl, fun _ _ => rfl, fun _ _ => rfl, fun _ _ => rfl⟩
  have := unitSystem_mapMag (E := E) (fun _ : M => ()) mag factor ts
  unfold reported at h
  rw [show (fun _ : Number => ()) = (fun _ : M => ()) ∘ mag from rfl, show (fun _ : Prefix => ()) = (fun _ : M => ()) ∘ factor from rfl, this] at h
  cases hu : (unitSystem mag factor ts : MacroResult (Defs E M × List Diag)) with
  | syntaxError => rw [hu] at h; simp at h
  | panic => rw [hu] at h; simp at h
  | done r =>
    rw [hu] at h
    simp only [Option.some.injEq] at h
    exact ⟨r.1, by rw [← h]⟩

/-- **C50, strict.** The unit system of the repository's own test is a syntax error for the integer build; the build with fractions accepts
it without errors. -/
theorem C50_strict {M M' : Type} [MagOps Int M] [MagOps Ratio M'] (mag : Number → M) (factor : Prefix → M) (mag' : Number → M') (factor' : Prefix → M') :
    ∃ ts, lex sorptivityText = some ts ∧ unitSystem mag factor ts = (.syntaxError : MacroResult (Defs Int M × List Diag)) ∧
      ∃ d' : Defs Ratio M', unitSystem mag' factor' ts = .done (d', []) := by
  obtain ⟨ts, hts⟩ := Option.isSome_iff_exists.1 (show (lex sorptivityText).isSome = true by decide +kernel)
  refine ⟨ts, hts, ?_, done_of_reported _ _ ?_⟩
  · have h : (lex sorptivityText).bind (parseSystem false) = none := by decide +kernel
    rw [hts] at h
    unfold unitSystem
    rw [show ReadExponent.rational Int = false from rfl, show parseSystem false ts = none from h]
  · have h : (lex sorptivityText).bind (reported Ratio) = some [] := by decide +kernel
    rw [hts] at h
    exact h

/-! ### Concrete cases -/

/-- The same without fractions. -/
def speedText : List Str :=
  [str!"    quantity_type Quantity;",
   str!"    dimension_type Dimension;",
   str!"    dimension Length;",
   str!"    dimension Time;",
   str!"    dimension Velocity = Length / Time;",
   str!"    #[base(Time)]",
   str!"    #[symbol(s)]",
   str!"    unit seconds;",
   str!"    #[base(Length)]",
   str!"    #[prefix(kilo)]",
   str!"    #[symbol(m)]",
   str!"    unit meters;",
   str!"    unit kmh: Velocity = kilometers / (3600.0 * seconds);"]

/-- Exact arithmetic, with a power for fractions of denominator one only. -/
@[reducible] def exactRatio : MagOps Ratio ℚ where
  one := 1
  mul := (· * ·)
  div := (· / ·)
  pow x r := if r.denom = 1 then x ^ r.num else 0
  isOne x := decide (x = 1)

section
attribute [local instance] Sample.exactMag exactRatio

/-- `SameArithmetic` is met by exact arithmetic, and `C50_factors`, `C50_text` by a concrete unit system. -/
example : SameArithmetic ℚ ∧ ∃ ts, lex speedText = some ts ∧ ∃ d : Defs Int ℚ, unitSystem Number.exact Prefix.literal ts = .done (d, []) := by
  refine ⟨⟨rfl, fun _ _ => rfl, fun _ _ => rfl, fun _ _ => rfl, fun _ => rfl⟩, ?_⟩
  obtain ⟨ts, hts⟩ := Option.isSome_iff_exists.1 (show (lex speedText).isSome = true by decide +kernel)
  refine ⟨ts, hts, done_of_reported _ _ ?_⟩
  have h : (lex speedText).bind (reported Int) = some [] := by decide +kernel
  rw [hts] at h
  exact h
end

/-- `C50_operators`: a length divided by a time. -/
example : ∃ l r out, l.ty.Moderate ∧ r.ty.Moderate ∧ OpTyped [.f64] 2 .div l r out ∧ out = .value (.quantity .f64 [1, -1]) ∧
    out.asRatio = .value (.quantity .f64 [⟨1, 1⟩, ⟨-1, 1⟩]) :=
  ⟨⟨.value, .quantity .f64 [1, 0]⟩, ⟨.ref, .quantity .f64 [0, 1]⟩, _, by simp [Ty.Moderate], by simp [Ty.Moderate],
    (C20_exactly _ _ _ _ _ _).2 ⟨.f64, rfl, ⟨by decide, by decide⟩, [1, -1], by decide +kernel, rfl⟩, rfl, rfl⟩

/-- `C50_functions`: the square root of an area, whose exponents the build with fractions has to divide. -/
example : (Fn.sqrt : Fn Int).sig 2 [.quantity .f64 [2, 0]] = some (.quantity .f64 [1, 0]) ∧
    (Fn.sqrt : Fn Ratio).sig 2 [.quantity .f64 [⟨2, 1⟩, ⟨0, 1⟩]] = some (.quantity .f64 [⟨1, 1⟩, ⟨0, 1⟩]) ∧
    (Fn.sqrt : Fn Int).sig 2 [.quantity .f64 [1, 0]] = none ∧
    (Fn.sqrt : Fn Ratio).sig 2 [.quantity .f64 [⟨1, 1⟩, ⟨0, 1⟩]] = some (.quantity .f64 [⟨1, 2⟩, ⟨0, 1⟩]) := by
  refine ⟨?_, ?_, ?_, ?_⟩ <;> decide +kernel

end Diman
