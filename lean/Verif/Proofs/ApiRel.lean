import Verif.Spec.ErrorBook
/-! The generated API respects every relation between two arithmetics that the primitive operations respect. -/
namespace Diman

/-- The primitive operations respect a relation between numbers and one between factors. Of `clamp` it is only asked that it succeeds
when the second one does. -/
structure PrimsRel {K M K' M' : Type} (P : Prims K M) (P' : Prims K' M') (R : K → K' → Prop) (S : M → M' → Prop) : Prop where
  zero : ∀ t, R (P.zero t) (P'.zero t)
  one : ∀ t, R (P.one t) (P'.one t)
  add : ∀ t {x x' y y'}, R x x' → R y y' → R (P.add t x y) (P'.add t x' y')
  sub : ∀ t {x x' y y'}, R x x' → R y y' → R (P.sub t x y) (P'.sub t x' y')
  mul : ∀ t {x x' y y'}, R x x' → R y y' → R (P.mul t x y) (P'.mul t x' y')
  div : ∀ t {x x' y y'}, R x x' → R y y' → R (P.div t x y) (P'.div t x' y')
  neg : ∀ t {x x'}, R x x' → R (P.neg t x) (P'.neg t x')
  abs : ∀ t {x x'}, R x x' → R (P.abs t x) (P'.abs t x')
  min : ∀ t {x x' y y'}, R x x' → R y y' → R (P.min t x y) (P'.min t x' y')
  max : ∀ t {x x' y y'}, R x x' → R y y' → R (P.max t x y) (P'.max t x' y')
  clamp : ∀ t {x x' y y' z z'} {w'}, R x x' → R y y' → R z z' → P'.clamp t x' y' z' = some w' → ∃ w, P.clamp t x y z = some w ∧ R w w'
  powi : ∀ t {x x'} (i : Int), R x x' → R (P.powi t x i) (P'.powi t x' i)
  sqrt : ∀ t {x x'}, R x x' → R (P.sqrt t x) (P'.sqrt t x')
  cbrt : ∀ t {x x'}, R x x' → R (P.cbrt t x) (P'.cbrt t x')
  fn : ∀ f t {x x'}, R x x' → R (P.fn f t x) (P'.fn f t x')
  into : ∀ t {m m'}, S m m' → R (P.into t m) (P'.into t m')
  magMul : ∀ {m m' k k'}, S m m' → S k k' → S (P.magMul m k) (P'.magMul m' k')
  magDiv : ∀ {m m' k k'}, S m m' → S k k' → S (P.magDiv m k) (P'.magDiv m' k')

section
variable {K M K' M' : Type} {R : K → K' → Prop} {S : M → M' → Prop}

theorem rel_quantity {v : Val K M} {r' : Raw K'} : Val.Rel R S v (.quantity r' : Val K' M') ↔ ∃ r, v = .quantity r ∧ List.Forall₂ R r r' := by
  cases v <;> simp [Val.Rel]
theorem rel_bare {v : Val K M} {r' : Raw K'} : Val.Rel R S v (.bare r' : Val K' M') ↔ ∃ r, v = .bare r ∧ List.Forall₂ R r r' := by
  cases v <;> simp [Val.Rel]
theorem rel_unit {v : Val K M} {m' : M'} : Val.Rel R S v (.unit m' : Val K' M') ↔ ∃ m, v = .unit m ∧ S m m' := by
  cases v <;> simp [Val.Rel]
theorem rel_runtimeUnit {v : Val K M} {m' : M'} : Val.Rel R S v (.runtimeUnit m' : Val K' M') ↔ ∃ m, v = .runtimeUnit m ∧ S m m' := by
  cases v <;> simp [Val.Rel]

theorem forall₂_zipWith {α β γ α' β' γ' : Type} {A : α → α' → Prop} {B : β → β' → Prop} {C : γ → γ' → Prop} {f : α → β → γ} {f' : α' → β' → γ'}
    (h : ∀ {x x' y y'}, A x x' → B y y' → C (f x y) (f' x' y')) {l l' m m'} (hl : List.Forall₂ A l l') (hm : List.Forall₂ B m m') :
    List.Forall₂ C (List.zipWith f l m) (List.zipWith f' l' m') := by
  induction hl generalizing m m' with
  | nil => simp
  | cons a _ ih => cases hm with
    | nil => simp
    | cons b hm => exact .cons (h a b) (ih hm)

theorem forall₂_map {α β α' β' : Type} {A : α → α' → Prop} {B : β → β' → Prop} {f : α → β} {f' : α' → β'}
    (h : ∀ {x x'}, A x x' → B (f x) (f' x')) {l l'} (hl : List.Forall₂ A l l') : List.Forall₂ B (l.map f) (l'.map f') := by
  induction hl with
  | nil => simp
  | cons a _ ih => exact .cons (h a) ih

theorem forall₂_set {α β : Type} {A : α → β → Prop} {l l'} (hl : List.Forall₂ A l l') {x y} (h : A x y) (i : Nat) :
    List.Forall₂ A (l.set i x) (l'.set i y) := by
  induction hl generalizing i with
  | nil => simp
  | cons a hl ih => cases i with
    | zero => exact .cons h hl
    | succ i => exact .cons a (ih i)

theorem forall₂_getElem? {α β : Type} {A : α → β → Prop} {l l'} (hl : List.Forall₂ A l l') {i : Nat} {y} (h : l'[i]? = some y) :
    ∃ x, l[i]? = some x ∧ A x y := by
  induction hl generalizing i with
  | nil => simp at h
  | cons a hl ih => cases i with
    | zero => simp at h; subst h; exact ⟨_, rfl, a⟩
    | succ i => exact ih (by simpa using h)

variable [P : Prims K M] [P' : Prims K' M'] (hR : PrimsRel P P' R S)
include hR

theorem arith_rel (t : Trait) (ft : FloatTy) {x x' y y'} (hx : R x x') (hy : R y y') : R (arith M t ft x y) (arith M' t ft x' y') := by
  cases t <;> first | exact hR.add ft hx hy | exact hR.sub ft hx hy | exact hR.mul ft hx hy | exact hR.div ft hx hy | exact hx

/-- Related results of a primitive operator. -/
def RawOut.Rel (R : K → K' → Prop) : RawOut K → RawOut K' → Prop
  | .raw r, .raw r' => List.Forall₂ R r r'
  | .bool _, .bool _ => True
  | .ordering _, .ordering _ => True
  | _, _ => False

theorem zip_rel (t : Trait) (ft : FloatTy) (sl sr : Storage) {a b a' b' c'} (ha : List.Forall₂ R a a') (hb : List.Forall₂ R b b')
    (h : Raw.zip (arith M' t ft) sl sr a' b' = some c') : ∃ c, Raw.zip (arith M t ft) sl sr a b = some c ∧ List.Forall₂ R c c' := by
  unfold Raw.zip at *
  split at h
  · rename_i hs
    rw [if_pos hs]
    split at h
    · injection h with h; subst h
      simp only [List.forall₂_cons_right_iff, List.forall₂_nil_right_iff] at ha
      obtain ⟨x, _, hx, rfl, rfl⟩ := ha
      exact ⟨_, rfl, forall₂_map (fun h => arith_rel hR _ _ hx h) hb⟩
    · cases h
  · rename_i hs
    rw [if_neg hs]
    split at h
    · rename_i hs
      rw [if_pos hs]
      split at h
      · injection h with h; subst h
        simp only [List.forall₂_cons_right_iff, List.forall₂_nil_right_iff] at hb
        obtain ⟨x, _, hx, rfl, rfl⟩ := hb
        exact ⟨_, rfl, forall₂_map (fun h => arith_rel hR _ _ h hx) ha⟩
      · cases h
    · rename_i hs
      rw [if_neg hs]
      injection h with h; subst h
      exact ⟨_, rfl, forall₂_zipWith (f := arith M t ft) (f' := arith M' t ft) (fun h h' => arith_rel hR _ _ h h') ha hb⟩

theorem rawOp_rel (t : Trait) (sl sr : Storage) {a b a' b' c'} (ha : List.Forall₂ R a a') (hb : List.Forall₂ R b b')
    (h : rawOp M' t sl sr a' b' = some c') : ∃ c, rawOp M t sl sr a b = some c ∧ RawOut.Rel R c c' := by
  unfold rawOp at *
  split at h
  · cases h
  rename_i hs
  rw [if_neg hs]
  split at h
  · injection h with h; subst h; exact ⟨_, rfl, trivial⟩
  · split at h
    · injection h with h; subst h
      simp only [List.forall₂_cons_right_iff, List.forall₂_nil_right_iff] at ha hb
      obtain ⟨x, _, hx, rfl, rfl⟩ := ha
      obtain ⟨y, _, hy, rfl, rfl⟩ := hb
      exact ⟨_, rfl, trivial⟩
    · cases h
  · rename_i h1 h2
    obtain ⟨z, hz, rfl⟩ := Option.map_eq_some_iff.1 h
    obtain ⟨c, hc, hr⟩ := zip_rel hR _ _ sl sr ha hb hz
    refine ⟨.raw c, ?_, hr⟩
    rw [hc]; rfl

omit hR [P : Prims K M] [P' : Prims K' M'] in
theorem prepare_rel (o : OperatorTrait) {a b : Val K M} {a' b' : Val K' M'} {l' r'} (ha : Val.Rel R S a a') (hb : Val.Rel R S b b')
    (h : o.prepare a' b' = some (l', r')) : ∃ l r, o.prepare a b = some (l, r) ∧ List.Forall₂ R l l' ∧ List.Forall₂ R r r' := by
  have acc : ∀ (f : Bool) (n : Nat) {v : Val K M} {v' : Val K' M'} {x : Arg (Raw K')}, Val.Rel R S v v' → accessArg f ⟨n, v'⟩ = some x →
      ∃ y, accessArg f ⟨n, v⟩ = some ⟨x.layers, y⟩ ∧ List.Forall₂ R y x.val := by
    intro f n v v' x hv h
    cases f <;> cases v' <;> simp [accessArg] at h
    · rw [rel_bare] at hv; obtain ⟨r, rfl, hr⟩ := hv; subst h; exact ⟨r, rfl, hr⟩
    · rw [rel_quantity] at hv; obtain ⟨r, rfl, hr⟩ := hv; subst h; exact ⟨r, rfl, hr⟩
  have der : ∀ {x : Arg (Raw K')} {y : Raw K} {z : Arg (Raw K')}, List.Forall₂ R y x.val → derefArg x = some z →
      derefArg (⟨x.layers, y⟩ : Arg (Raw K)) = some ⟨z.layers, y⟩ ∧ List.Forall₂ R y z.val := by
    intro x y z hy h
    obtain ⟨n, v⟩ := x
    cases n <;> simp [derefArg] at h ⊢
    subst h; exact ⟨rfl, hy⟩
  have pre : ∀ (p : RhsPrefix) {x : Arg (Raw K')} {y : Raw K} {z : Arg (Raw K')}, List.Forall₂ R y x.val → p.apply x = some z →
      p.apply (⟨x.layers, y⟩ : Arg (Raw K)) = some ⟨z.layers, y⟩ ∧ List.Forall₂ R y z.val := by
    intro p x y z hy h
    obtain ⟨n, v⟩ := x
    cases p
    · simp [RhsPrefix.apply] at h ⊢; subst h; exact ⟨rfl, hy⟩
    · cases n <;> simp [RhsPrefix.apply, derefArg] at h ⊢
      subst h; exact ⟨rfl, hy⟩
    · simp [RhsPrefix.apply] at h ⊢; subst h; exact ⟨rfl, hy⟩
  unfold OperatorTrait.prepare at *
  cases hd : o.fnReturnExpr.lhsDeref
  · simp only [hd, Option.bind_eq_bind, Option.bind_eq_some_iff, Bool.false_eq_true, if_false, Option.some.injEq, exists_eq_left'] at h ⊢
    obtain ⟨l1, h1, r1, h3, r2, h4, h5⟩ := h
    obtain ⟨y1, e1, f1⟩ := acc _ _ ha h1
    obtain ⟨y2, e3, f3⟩ := acc _ _ hb h3
    obtain ⟨e4, f4⟩ := pre _ f3 h4
    split at h5
    · rename_i hc
      simp only [Option.some.injEq, Prod.mk.injEq] at h5
      obtain ⟨rfl, rfl⟩ := h5
      exact ⟨y1, y2, ⟨_, e1, _, e3, _, e4, by rw [if_pos hc]⟩, f1, f4⟩
    · cases h5
  · simp only [hd, Option.bind_eq_bind, Option.bind_eq_some_iff, if_true] at h ⊢
    obtain ⟨l1, h1, l2, h2, r1, h3, r2, h4, h5⟩ := h
    obtain ⟨y1, e1, f1⟩ := acc _ _ ha h1
    obtain ⟨e2, f2⟩ := der f1 h2
    obtain ⟨y2, e3, f3⟩ := acc _ _ hb h3
    obtain ⟨e4, f4⟩ := pre _ f3 h4
    split at h5
    · rename_i hc
      simp only [Option.some.injEq, Prod.mk.injEq] at h5
      obtain ⟨rfl, rfl⟩ := h5
      exact ⟨y1, y2, ⟨_, e1, _, e2, _, e3, _, e4, by rw [if_pos hc]⟩, f2, f4⟩
    · cases h5

theorem op_rel (o : OperatorTrait) (sl sr : Storage) {a b : Val K M} {a' b' v' : Val K' M'} (ha : Val.Rel R S a a') (hb : Val.Rel R S b b')
    (h : o.run sl sr a' b' = some v') : ∃ v, o.run sl sr a b = some v ∧ Val.Rel R S v v' := by
  unfold OperatorTrait.run at *
  simp only [Option.bind_eq_bind, Option.bind_eq_some_iff, Option.pure_def, Option.some.injEq] at h ⊢
  obtain ⟨⟨l', r'⟩, h1, out', h2, rfl⟩ := h
  obtain ⟨l, r, e1, hl, hr⟩ := prepare_rel o ha hb h1
  obtain ⟨out, e2, ho⟩ := rawOp_rel hR _ _ _ hl hr h2
  refine ⟨_, ⟨_, e1, _, e2, rfl⟩, ?_⟩
  cases out <;> cases out' <;> simp only [RawOut.Rel] at ho
  · unfold OperatorTrait.finish
    cases o.name <;> simp only [] <;> split <;> exact ho
  · trivial
  · trivial

theorem sumLoop_rel (s : Storage) {as : List (Val K M)} {as' : List (Val K' M')} (h : List.Forall₂ (Val.Rel R S) as as') {tot tot' v'}
    (ht : Val.Rel R S tot tot') (hs : sumLoop s tot' as' = some v') : ∃ v, sumLoop s tot as = some v ∧ Val.Rel R S v v' := by
  induction h generalizing tot tot' with
  | nil => simp [sumLoop] at hs ⊢; subst hs; exact ht
  | cons ha _ ih =>
    simp only [sumLoop, Option.bind_eq_bind, Option.bind_eq_some_iff] at hs ⊢
    obtain ⟨t1, h1, h2⟩ := hs
    obtain ⟨t, e1, r1⟩ := op_rel hR _ _ _ ht ha h1
    obtain ⟨v, e2, r2⟩ := ih r1 h2
    exact ⟨v, ⟨t, e1, e2⟩, r2⟩

theorem zeroRaw_rel (s : Storage) : List.Forall₂ R (zeroRaw M s) (zeroRaw M' s) := by
  unfold zeroRaw
  induction s.numDims with
  | zero => simp
  | succ n ih => exact .cons (hR.zero _) ih

theorem axisRaw_rel (a : Axis) (s : Storage) : List.Forall₂ R (axisRaw M a s) (axisRaw M' a s) := by
  unfold axisRaw
  induction List.range s.numDims with
  | nil => simp
  | cons i l ih =>
    refine .cons ?_ ih
    show R (if i = a.idx then _ else _) (if i = a.idx then _ else _)
    split
    · exact hR.one _
    · exact hR.zero _

theorem foldl_rel (t : FloatTy) {l l'} (hl : List.Forall₂ R l l') {p p'} (hp : R p p') :
    R (l.foldl (Prims.add M t) p) (l'.foldl (Prims.add M' t) p') := by
  induction hl generalizing p p' with
  | nil => exact hp
  | cons hq _ ih => exact ih (hR.add t hp hq)

theorem rawDot_rel (t : FloatTy) {a b a' b' c'} (ha : List.Forall₂ R a a') (hb : List.Forall₂ R b b') (h : rawDot M' t a' b' = some c') :
    ∃ c, rawDot M t a b = some c ∧ R c c' := by
  unfold rawDot at *
  have hz := forall₂_zipWith (C := R) (f := Prims.mul M t) (f' := Prims.mul M' t) (fun h h' => hR.mul t h h') ha hb
  generalize List.zipWith (Prims.mul M t) a b = l at *
  generalize List.zipWith (Prims.mul M' t) a' b' = l' at *
  cases hz with
  | nil => cases h
  | cons hp hl =>
    simp only [Option.some.injEq] at h ⊢
    subst h
    refine ⟨_, rfl, ?_⟩
    exact foldl_rel hR t hl hp

theorem rawLength_rel (t : FloatTy) {a a' c'} (ha : List.Forall₂ R a a') (h : rawLength M' t a' = some c') :
    ∃ c, rawLength M t a = some c ∧ R c c' := by
  unfold rawLength at *
  obtain ⟨d', hd, rfl⟩ := Option.map_eq_some_iff.1 h
  obtain ⟨d, e, r⟩ := rawDot_rel hR t ha ha hd
  exact ⟨_, by rw [e]; rfl, hR.sqrt t r⟩

omit hR [P : Prims K M] [P' : Prims K' M'] in
theorem into0_rel {v : Val K M} {v' : Val K' M'} (h : Val.Rel R S v v') {r'} (hr : v'.into0 = some r') :
    ∃ r, v.into0 = some r ∧ List.Forall₂ R r r' := by
  cases v' <;> simp [Val.into0] at hr <;> subst hr
  · rw [rel_quantity] at h; obtain ⟨r, rfl, hr⟩ := h; exact ⟨r, rfl, hr⟩
  · rw [rel_bare] at h; obtain ⟨r, rfl, hr⟩ := h; exact ⟨r, rfl, hr⟩

theorem body_rel {E : Type} (s : Storage) (f : Fn E) {as : List (Val K M)} {as' : List (Val K' M')} {v'}
    (ha : List.Forall₂ (Val.Rel R S) as as') (h : f.body s as' = some v') : ∃ v, f.body s as = some v ∧ Val.Rel R S v v' := by
  cases f <;> simp only [Fn.body] at h ⊢
  case sum => exact sumLoop_rel hR _ ha (tot := .quantity (zeroRaw M _)) (tot' := .quantity (zeroRaw M' _)) (zeroRaw_rel hR _) h
  all_goals
    split at h <;> first | contradiction | skip
  all_goals
    simp only [List.forall₂_cons_right_iff, List.forall₂_nil_right_iff, rel_quantity, rel_bare, rel_unit, rel_runtimeUnit] at ha
  -- one quantity
  all_goals try
    obtain ⟨_, _, ⟨r, rfl, hr⟩, rfl, rfl⟩ := ha
    cases h; exact ⟨_, rfl, hr⟩
  all_goals try
    subst ha
    cases h; exact ⟨_, rfl, zeroRaw_rel hR _⟩
  all_goals try
    obtain ⟨_, _, ⟨r, rfl, x, _, hx, rfl, rfl⟩, rfl, rfl⟩ := ha
    cases h
    first
    | exact ⟨_, rfl, trivial⟩
    | exact ⟨_, rfl, .cons (hR.fn _ _ hx) .nil⟩
    | exact ⟨_, rfl, .cons (hR.powi _ _ hx) .nil⟩
    | exact ⟨_, rfl, .cons (hR.sqrt _ hx) .nil⟩
    | exact ⟨_, rfl, .cons (hR.cbrt _ hx) .nil⟩
  all_goals try
    obtain ⟨_, _, ⟨r, rfl, hr⟩, rfl, rfl⟩ := ha
    cases h
    first
    | exact ⟨_, rfl, forall₂_map (A := R) (B := R) (fun h => hR.neg _ h) hr⟩
    | exact ⟨_, rfl, forall₂_map (A := R) (B := R) (fun h => hR.abs _ h) hr⟩
  all_goals try
    obtain ⟨_, _, ⟨r, rfl, hr⟩, ⟨_, _, ⟨m, rfl, hm⟩, rfl, rfl⟩, rfl⟩ := ha
    cases h
    first
    | exact ⟨_, rfl, hR.magMul hr hm⟩
    | exact ⟨_, rfl, hR.magDiv hr hm⟩
    | exact ⟨_, rfl, forall₂_map (A := R) (B := R) (fun h => hR.div _ h (hR.into _ hm)) hr⟩
    | exact ⟨_, rfl, forall₂_map (A := R) (B := R) (fun h => hR.div _ h (hR.into _ hr)) hm⟩
    | exact ⟨_, rfl, forall₂_map (A := R) (B := R) (fun h => hR.div _ (hR.into _ hr) h) hm⟩
    | exact ⟨_, rfl, forall₂_map (A := R) (B := R) (fun h => hR.mul _ h (hR.into _ hm)) hr⟩
    | exact ⟨_, rfl, forall₂_map (A := R) (B := R) (fun h => hR.mul _ h (hR.into _ hr)) hm⟩
    | exact ⟨_, rfl, forall₂_map (A := R) (B := R) (fun h => hR.mul _ (hR.into _ hr) h) hm⟩
  all_goals try
    obtain ⟨_, _, hv, rfl, rfl⟩ := ha
    exact op_rel hR (a := _) (b := .bare (axisRaw M _ _)) (a' := _) (b' := .bare (axisRaw M' _ _)) _ _ _ hv (axisRaw_rel hR _ _) h
  all_goals try
    obtain ⟨_, _, ⟨r, rfl, hr⟩, ⟨_, _, hv, rfl, rfl⟩, rfl⟩ := ha
    obtain ⟨w', hw', rfl⟩ := Option.map_eq_some_iff.1 h
    obtain ⟨w, hw, hr'⟩ := into0_rel hv hw'
    simp only [hw, Option.map_some]
    first
    | exact ⟨_, rfl, forall₂_zipWith (A := R) (B := R) (C := R) (f := Prims.min M s.base) (f' := Prims.min M' s.base) (fun h h' => hR.min _ h h') hr hr'⟩
    | exact ⟨_, rfl, forall₂_zipWith (A := R) (B := R) (C := R) (f := Prims.max M s.base) (f' := Prims.max M' s.base) (fun h h' => hR.max _ h h') hr hr'⟩
  all_goals try
    obtain ⟨_, _, ⟨r, rfl, x, _, hx, rfl, rfl⟩, ⟨_, _, ⟨r, rfl, y, _, hy, rfl, rfl⟩, rfl, rfl⟩, rfl⟩ := ha
    cases h
    exact ⟨_, rfl, .cons hx (.cons hy .nil)⟩
  all_goals try
    obtain ⟨_, _, ⟨r, rfl, x, _, hx, rfl, rfl⟩, ⟨_, _, ⟨r, rfl, y, _, hy, rfl, rfl⟩, ⟨_, _, ⟨r, rfl, z, _, hz, rfl, rfl⟩, rfl, rfl⟩, rfl⟩, rfl⟩ := ha
    cases h
    exact ⟨_, rfl, .cons hx (.cons hy (.cons hz .nil))⟩
  all_goals try
    obtain ⟨_, _, ⟨r, rfl, hr⟩, ⟨_, _, ⟨r, rfl, y, _, hy, rfl, rfl⟩, rfl, rfl⟩, rfl⟩ := ha
    cases h
    exact ⟨_, rfl, forall₂_set hr hy _⟩
  all_goals try
    obtain ⟨_, _, ⟨r, rfl, hr⟩, rfl, rfl⟩ := ha
    obtain ⟨w', hw', rfl⟩ := Option.map_eq_some_iff.1 h
    first
    | (obtain ⟨w, hw, hr'⟩ := forall₂_getElem? hr hw'
       simp only [hw, Option.map_some]; exact ⟨_, rfl, .cons hr' .nil⟩)
    | (obtain ⟨w, hw, hr'⟩ := rawLength_rel hR _ hr hw'
       simp only [hw, Option.map_some]
       first
       | exact ⟨_, rfl, .cons hr' .nil⟩
       | exact ⟨_, rfl, forall₂_map (A := R) (B := R) (fun h => hR.mul _ h (hR.div _ (hR.one _) hr')) hr⟩)
  all_goals try
    obtain ⟨_, _, ⟨r, rfl, hr⟩, ⟨_, _, ⟨r2, rfl, hr2⟩, rfl, rfl⟩, rfl⟩ := ha
    obtain ⟨w', hw', rfl⟩ := Option.map_eq_some_iff.1 h
    have hd := forall₂_zipWith (A := R) (B := R) (C := R) (f := Prims.sub M s.base) (f' := Prims.sub M' s.base) (fun h h' => hR.sub _ h h') hr hr2
    first
    | (obtain ⟨w, hw, hr'⟩ := rawLength_rel hR _ hd hw'
       simp only [hw, Option.map_some]; exact ⟨_, rfl, .cons hr' .nil⟩)
    | (obtain ⟨w, hw, hr'⟩ := rawDot_rel hR _ hd hd hw'
       simp only [hw, Option.map_some]; exact ⟨_, rfl, .cons hr' .nil⟩)
    | (obtain ⟨w, hw, hr'⟩ := rawDot_rel hR _ hr hr2 hw'
       simp only [hw, Option.map_some]; exact ⟨_, rfl, .cons hr' .nil⟩)
  obtain ⟨_, _, ⟨r, rfl, x, _, hx, rfl, rfl⟩, ⟨_, _, hlo, ⟨_, _, hhi, rfl, rfl⟩, rfl⟩, rfl⟩ := ha
  split at h
  · rename_i h1 h2
    obtain ⟨lo, e1, r1⟩ := into0_rel hlo h1
    obtain ⟨hi, e2, r2⟩ := into0_rel hhi h2
    simp only [List.forall₂_cons_right_iff, List.forall₂_nil_right_iff] at r1 r2
    obtain ⟨a, _, ha, rfl, rfl⟩ := r1
    obtain ⟨b, _, hb, rfl, rfl⟩ := r2
    obtain ⟨w', hw', rfl⟩ := Option.map_eq_some_iff.1 h
    obtain ⟨w, hw, hr⟩ := hR.clamp _ hx ha hb hw'
    simp only [e1, e2, hw, Option.map_some]; exact ⟨_, rfl, .cons hr .nil⟩
  · cases h

variable {E U : Type} [FieldOps E] [DecidableEq E]

theorem run_rel (n : Nat) (f : Fn E) (tys : List (Ty E)) {as : List (Val K M)} {as' : List (Val K' M')} {v'}
    (ha : List.Forall₂ (Val.Rel R S) as as') (h : f.run n tys as' = some v') : ∃ v, f.run n tys as = some v ∧ Val.Rel R S v v' := by
  unfold Fn.run at *
  split at h
  · cases h
  · rename_i hs
    rw [if_neg hs]
    exact body_rel hR _ f ha h

mutual
/-- If a calculation gives a result in the second arithmetic, it gives a related one in the first. -/
theorem eval_rel (n : Nat) {fac : U → M} {fac' : U → M'} (hf : ∀ u, S (fac u) (fac' u)) (c : Calc E U) {ρ : List (Val K M)} {ρ' : List (Val K' M')}
    (hρ : List.Forall₂ (Val.Rel R S) ρ ρ') {v'} (h : c.eval n fac' ρ' = some v') : ∃ v, c.eval n fac ρ = some v ∧ Val.Rel R S v v' := by
  match c with
  | .var x => exact forall₂_getElem? hρ (by simpa [Calc.eval] using h)
  | .unit u =>
    simp only [Calc.eval, Option.some.injEq] at h ⊢
    subst h
    exact ⟨_, rfl, hf u⟩
  | .op o sl sr l r =>
    simp only [Calc.eval, Option.bind_eq_bind, Option.bind_eq_some_iff] at h ⊢
    obtain ⟨a', h1, b', h2, h3⟩ := h
    obtain ⟨a, e1, r1⟩ := eval_rel n hf l hρ h1
    obtain ⟨b, e2, r2⟩ := eval_rel n hf r hρ h2
    obtain ⟨v, e3, r3⟩ := op_rel hR o sl sr r1 r2 h3
    exact ⟨v, ⟨a, e1, b, e2, e3⟩, r3⟩
  | .call f tys args =>
    simp only [Calc.eval, Option.bind_eq_bind, Option.bind_eq_some_iff] at h ⊢
    obtain ⟨vs', h1, h2⟩ := h
    obtain ⟨vs, e1, r1⟩ := evals_rel n hf args hρ h1
    obtain ⟨v, e3, r3⟩ := run_rel hR n f tys r1 h2
    exact ⟨v, ⟨vs, e1, e3⟩, r3⟩
  | .letIn a b =>
    simp only [Calc.eval, Option.bind_eq_bind, Option.bind_eq_some_iff] at h ⊢
    obtain ⟨w', h1, h2⟩ := h
    obtain ⟨w, e1, r1⟩ := eval_rel n hf a hρ h1
    obtain ⟨v, e3, r3⟩ := eval_rel n hf b (.cons r1 hρ) h2
    exact ⟨v, ⟨w, e1, e3⟩, r3⟩
theorem evals_rel (n : Nat) {fac : U → M} {fac' : U → M'} (hf : ∀ u, S (fac u) (fac' u)) (cs : Calcs E U) {ρ : List (Val K M)} {ρ' : List (Val K' M')}
    (hρ : List.Forall₂ (Val.Rel R S) ρ ρ') {vs'} (h : cs.eval n fac' ρ' = some vs') :
    ∃ vs, cs.eval n fac ρ = some vs ∧ List.Forall₂ (Val.Rel R S) vs vs' := by
  match cs with
  | .nil =>
    simp only [Calcs.eval, Option.some.injEq] at h ⊢
    subst h
    exact ⟨_, rfl, .nil⟩
  | .cons a as =>
    simp only [Calcs.eval, Option.bind_eq_bind, Option.bind_eq_some_iff, Option.pure_def, Option.some.injEq] at h ⊢
    obtain ⟨v', h1, vs', h2, rfl⟩ := h
    obtain ⟨v, e1, r1⟩ := eval_rel n hf a hρ h1
    obtain ⟨vs, e2, r2⟩ := evals_rel n hf as hρ h2
    exact ⟨_, ⟨v, e1, vs, e2, rfl⟩, .cons r1 r2⟩
end
end
end Diman
