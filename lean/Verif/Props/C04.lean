import Verif.Props.C05
/-!
# C04 Definition expressions parse left-associatively with ^ binding tightest
-/
set_option linter.unusedSectionVars false
namespace Diman

theorem printInt_written {n : Int} (h : FitsI64 n) : WrittenInt n (printInt n) := by
  refine ⟨h.1, h.2, n.natAbs, ?_⟩
  unfold printInt
  split
  · exact .inr ⟨by omega, rfl⟩
  · exact .inl ⟨by omega, rfl⟩

theorem printExponent_written {rational : Bool} {x : ExpSyn} (h : ExponentOk rational x) :
    WrittenExponentTokens rational x (printExponent x) := by
  obtain ⟨n, d⟩ := x
  cases d with
  | none => exact printInt_written h.1
  | some d =>
    obtain ⟨h1, h2⟩ := h
    obtain ⟨h3, h4⟩ := h2 d rfl
    exact ⟨h4, _, _, printInt_written h1, printInt_written h3, rfl⟩

section
variable {T : Type} {ok : T → Prop} {pr : T → List Tok} {A : T → List Tok → Prop} {rational : Bool}

mutual
theorem printFactor_written (hp : ∀ a, ok a → A a (pr a)) : ∀ f : Factor T ExpSyn, FactorOk ok rational f →
    WrittenFactor A rational f (printFactor pr f)
  | .value a, h => by simp only [FactorOk] at h; simp only [WrittenFactor, printFactor]; exact hp a h
  | .power a x, h => by
    simp only [FactorOk] at h
    simp only [WrittenFactor, printFactor]
    exact ⟨_, _, hp a h.1, printExponent_written h.2, rfl⟩
  | .paren e, h => by
    simp only [FactorOk] at h
    simp only [WrittenFactor, printFactor]
    exact ⟨_, printExpr_written hp e h, rfl⟩
theorem printExpr_written (hp : ∀ a, ok a → A a (pr a)) : ∀ e : Expr T ExpSyn, ExprOk ok rational e →
    WrittenExpr A rational e (printExpr pr e)
  | .value f, h => by simp only [ExprOk] at h; simp only [WrittenExpr, printExpr]; exact printFactor_written hp f h
  | .binary l .mul r, h => by
    simp only [ExprOk] at h
    simp only [WrittenExpr, printExpr]
    exact ⟨_, _, _, printExpr_written hp l h.1, printFactor_written hp r h.2, .inl ⟨rfl, rfl⟩, by simp⟩
  | .binary l .div r, h => by
    simp only [ExprOk] at h
    simp only [WrittenExpr, printExpr]
    exact ⟨_, _, _, printExpr_written hp l h.1, printFactor_written hp r h.2, .inr (.inl ⟨rfl, rfl⟩), by simp⟩
end
end

theorem printAtom_written (a : Atom Number) (h : AtomOk a) : WrittenAtom a (printAtom a) := by
  match a with
  | .other x => exact ⟨h, rfl⟩
  | .concrete (.int n) => exact printInt_written h
  | .concrete (.float neg m e) => rfl

theorem one_toF64 : (Number.int 1).toF64 = .num false (1023 * 2 ^ 52) := by decide +kernel

theorem printDimensionAtom_written (a : Atom Unit) (h : DimensionAtomOk a) : WrittenDimensionAtom a (printDimensionAtom a) := by
  match a with
  | .other x => exact ⟨h, rfl⟩
  | .concrete _ => exact ⟨.int 1, printInt_written (n := 1) ⟨by norm_num, by norm_num⟩, one_toF64⟩

/-- **C04.** Printing any expression (of any size and nesting, whose identifiers and integers can be written) and parsing it gives back
exactly that expression, and leaves exactly what followed. -/
theorem C04_print_parse (rational : Bool) (e : Expr (Atom Number) ExpSyn) (h : ExprOk AtomOk rational e) (rest : List Tok)
    (hr : rest = [] ∨ ∃ l, rest = .punct ';' :: l) :
    parseExprTop parseMagnitudeAtom rational (printExpr printAtom e ++ rest) = some (e, rest) :=
  (C05_iff rational _ rest e).2 ⟨_, printExpr_written printAtom_written e h, rfl, hr⟩

/-- **C04.** The same for dimension definitions. -/
theorem C04_print_parse_dimension (rational : Bool) (e : Expr (Atom Unit) ExpSyn) (h : ExprOk DimensionAtomOk rational e)
    (rest : List Tok) (hr : rest = [] ∨ ∃ l, rest = .punct ';' :: l) :
    parseExprTop parseDimensionAtom rational (printExpr printDimensionAtom e ++ rest) = some (e, rest) :=
  (C05_dimension_iff rational _ rest e).2 ⟨_, printExpr_written printDimensionAtom_written e h, rfl, hr⟩

/-- The tokens of an operator. -/
def operatorTok : Operator → Tok
  | .mul => .punct '*'
  | .div => .punct '/'

theorem leftAssoc_written {rational : Bool} : ∀ (l : List (Operator × Factor (Atom Number) ExpSyn)) (e : Expr (Atom Number) ExpSyn) (ts : List Tok),
    WrittenExpr WrittenAtom rational e ts → (∀ p ∈ l, FactorOk AtomOk rational p.2) →
    WrittenExpr WrittenAtom rational (l.foldl (fun acc p => .binary acc p.1 p.2) e)
      (ts ++ l.flatMap fun p => operatorTok p.1 :: printFactor printAtom p.2)
  | [], e, ts, h, _ => by simpa using h
  | (o, f) :: l, e, ts, h, hl => by
    have hf := printFactor_written printAtom_written f (hl _ (List.mem_cons_self ..))
    have := leftAssoc_written l (.binary e o f) (ts ++ operatorTok o :: printFactor printAtom f) (by
      simp only [WrittenExpr]
      refine ⟨ts, [operatorTok o], _, h, hf, ?_, by simp⟩
      cases o
      · exact .inl ⟨rfl, rfl⟩
      · exact .inr (.inl ⟨rfl, rfl⟩)) (fun p hp => hl p (List.mem_cons_of_mem _ hp))
    simpa using this

/-- **C04.** `f₀ o₁ f₁ o₂ f₂ …` means `((f₀ o₁ f₁) o₂ f₂) …`, for any factors and any number of operators. -/
theorem C04_left_associative (rational : Bool) (f : Factor (Atom Number) ExpSyn) (l : List (Operator × Factor (Atom Number) ExpSyn))
    (hf : FactorOk AtomOk rational f) (hl : ∀ p ∈ l, FactorOk AtomOk rational p.2) :
    parseExprTop parseMagnitudeAtom rational
        (printFactor printAtom f ++ l.flatMap fun p => operatorTok p.1 :: printFactor printAtom p.2) =
      some (l.foldl (fun acc p => .binary acc p.1 p.2) (.value f), []) :=
  (C05_iff rational _ [] _).2 ⟨_, leftAssoc_written l (.value f) _ (by
    simp only [WrittenExpr]; exact printFactor_written printAtom_written f hf) hl, by simp, .inl rfl⟩

/-- **C04.** Leaving out `*` before an identifier changes nothing: `e x …` is read as `e * x …`. -/
theorem C04_juxtaposition (rational : Bool) (e : Expr (Atom Number) ExpSyn) (f : Factor (Atom Number) ExpSyn)
    (he : ExprOk AtomOk rational e) (hf : FactorOk AtomOk rational f) (x : Str) (l : List Tok)
    (hx : printFactor printAtom f = .ident x :: l) :
    parseExprTop parseMagnitudeAtom rational (printExpr printAtom e ++ printFactor printAtom f) = some (.binary e .mul f, []) ∧
    parseExprTop parseMagnitudeAtom rational (printExpr printAtom e ++ .punct '*' :: printFactor printAtom f) =
      some (.binary e .mul f, []) := by
  have he := printExpr_written printAtom_written e he
  have hf := printFactor_written printAtom_written f hf
  constructor
  · refine (C05_iff rational _ [] _).2 ⟨printExpr printAtom e ++ printFactor printAtom f, ?_, by simp, .inl rfl⟩
    simp only [WrittenExpr]
    exact ⟨_, [], _, he, hf, .inr (.inr ⟨rfl, rfl, x, l, hx⟩), by simp⟩
  · refine (C05_iff rational _ [] _).2 ⟨printExpr printAtom e ++ .punct '*' :: printFactor printAtom f, ?_, by simp, .inl rfl⟩
    simp only [WrittenExpr]
    exact ⟨_, [_], _, he, hf, .inl ⟨rfl, rfl⟩, by simp⟩

/-- **C04.** `^` applies to the single identifier or number before it: in `e o a ^ x` only `a` is raised. -/
theorem C04_power_binds (rational : Bool) (e : Expr (Atom Number) ExpSyn) (o : Operator) (a : Atom Number) (x : ExpSyn)
    (he : ExprOk AtomOk rational e) (ha : AtomOk a) (hx : ExponentOk rational x) :
    parseExprTop parseMagnitudeAtom rational (printExpr printAtom e ++ operatorTok o :: (printAtom a ++ .punct '^' :: printExponent x)) =
      some (.binary e o (.power a x), []) := by
  have := C04_print_parse rational (.binary e o (.power a x)) (by simp only [ExprOk, FactorOk]; exact ⟨he, ha, hx⟩) [] (.inl rfl)
  cases o <;> simpa [printExpr, printFactor, operatorTok] using this

/-- **C04.** A power of something in parentheses is rejected. -/
theorem C04_no_power_of_parentheses (rational : Bool) (c rest : List Tok) :
    parseExprTop parseMagnitudeAtom rational (.group .paren c :: .punct '^' :: rest) = none := by
  cases h : parseExprTop parseMagnitudeAtom rational (.group .paren c :: .punct '^' :: rest) with
  | none => rfl
  | some p =>
    exfalso
    unfold parseExprTop parseExpr at h
    simp only [Option.bind_eq_bind, Option.bind_eq_some_iff] at h
    obtain ⟨⟨f, r⟩, hf, hl⟩ := h
    obtain ⟨pre, h1, h2⟩ := (parse_sound parseMagnitudeAtom_spec _).1 _ _ _ hf
    cases f with
    | value a =>
      simp only [WrittenFactor] at h1
      exact parseMagnitudeAtom_spec.noGroup h1 r _ _ _ h2.symm
    | power a y =>
      simp only [WrittenFactor] at h1
      obtain ⟨ta, tx, h3, -, rfl⟩ := h1
      rw [List.append_assoc] at h2
      exact parseMagnitudeAtom_spec.noGroup h3 _ _ _ _ h2.symm
    | paren e =>
      simp only [WrittenFactor] at h1
      obtain ⟨c', -, rfl⟩ := h1
      simp only [List.cons_append, List.nil_append, List.cons.injEq] at h2
      obtain ⟨-, rfl⟩ := h2
      unfold parseLoop at hl
      simp [atEnd, parseOperator, peekIdent, parseIdent] at hl

/-- `a / b * c ^ -2 / (d * 3)`: the printed form parses back. -/
example :
    let i (s : Str) : Factor (Atom Number) ExpSyn := .value (.other s)
    let e : Expr (Atom Number) ExpSyn := .binary (.binary (.binary (.value (i (str!"a"))) .div (i (str!"b"))) .mul
      (.power (.other (str!"c")) ⟨-2, none⟩)) .div (.paren (.binary (.value (i (str!"d"))) .mul (.value (.concrete (.int 3)))))
    ExprOk AtomOk false e ∧ (printExpr printAtom e).length = 10 := by
  refine ⟨?_, by rfl⟩
  simp only [ExprOk, FactorOk, AtomOk, ExponentOk, FitsI64, IsIdent]
  decide

end Diman
