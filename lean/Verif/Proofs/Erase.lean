import Verif.Spec.Erase
import Verif.Proofs.Api
/-! Forgetting the units commutes with running (C74). -/
set_option linter.unusedSectionVars false
namespace Diman
variable {E U K M : Type} [FieldOps E] [DecidableEq E] [Prims K M] [NatCast K]

theorem op_erase {ss : List Storage} {o : OperatorTrait} (ho : o ∈ iterNumericTraits ss) {i : Inst E} {l r : OpTy E} {out : OpOut E}
    (h : o.Typed i l r out) {a b : Val K M} (ha : a.HasTy l.ty) (hb : b.HasTy r.ty) :
    PVal.op o.name (i.st o.storageTypes.1) (i.st o.storageTypes.2) a.erase b.erase =
      (o.run (i.st o.storageTypes.1) (i.st o.storageTypes.2) a b).map Val.erase := by
  obtain ⟨x, y, rfl, rfl, -, -⟩ := hasTy_wrap h ha hb
  rw [table_run ho]
  have hw : ∀ (p : Operand) (z : Raw K), (p.wrap z : Val K M).erase = .num z := by
    intro p z; unfold Operand.wrap; split <;> rfl
  rw [hw, hw, PVal.op]
  cases rawOp M o.name (i.st o.storageTypes.1) (i.st o.storageTypes.2) x y with
  | none => rfl
  | some z =>
    cases z with
    | raw r =>
      simp only [Option.map_some, OperatorTrait.result, RawOut.pval]
      split
      · rfl
      · rw [hw]
    | bool => rfl
    | ordering => rfl

theorem sumNums_eq {s : Storage} (rs : List (Raw K)) (a : Raw K) :
    sumNums (M := M) s a (rs.map .num) = some (.num (rs.foldl (List.zipWith (Prims.add M s.base)) a)) := by
  induction rs generalizing a with
  | nil => rfl
  | cons r rs ih => simpa [sumNums] using ih _

theorem into0_cases {v : Val K M} {r : Raw K} (h : v.into0 = some r) : v = .quantity r ∨ v = .bare r := by
  cases v <;> simp_all [Val.into0]

set_option hygiene false in
local macro "one" : tactic => `(tactic| (
  obtain ⟨v, rfl, hv⟩ := args1.1 ha
  cases v <;> simp only [Val.HasTy] at hv
  rename_i r))
set_option hygiene false in
local macro "two" : tactic => `(tactic| (
  obtain ⟨v, w, rfl, hv, hw⟩ := args2.1 ha
  cases v <;> simp only [Val.HasTy] at hv <;> cases w <;> simp only [Val.HasTy] at hw))

/-- A well-typed call of a generated function, without units, is the function it stands for. -/
theorem fn_erase {n : Nat} {f : Fn E} {tys : List (Ty E)} {t : Ty E} (h : f.sig n tys = some t) {args : List (Val K M)} (ha : ArgsHaveTy args tys) :
    (f.erase tys).run ((storageOf tys).getD .f64) (args.map Val.erase) = (f.run n tys args).map Val.erase := by
  have hrun : f.run n tys args = f.body ((storageOf tys).getD .f64) args := by simp [Fn.run, h]
  rw [hrun]; clear hrun
  cases f <;> simp only [Fn.sig] at h
  case sum s d =>
    split at h <;> [skip; cases h]
    rename_i hall
    obtain ⟨rs, rfl, hrs⟩ := argsHaveTy_all_quantity (by simpa using hall) ha
    obtain ⟨h1, -⟩ := sumLoop_eq (M := M) rs hrs (zeroRaw M s) (zeroRaw_length s)
    have e : (rs.map (Val.quantity (M := M))).map Val.erase = rs.map .num := by
      rw [List.map_map]; rfl
    have hb : (Fn.sum s d).body ((storageOf tys).getD .f64) (rs.map (Val.quantity (M := M))) =
        some (.quantity (rs.foldl (List.zipWith (Prims.add M s.base)) (zeroRaw M s))) := h1
    rw [hb, e]
    exact sumNums_eq rs _
  case value => split at h <;> [skip; cases h]; one; rfl
  case valueRef => split at h <;> [skip; cases h]; one; rfl
  case deref => split at h <;> [skip; cases h]; one; rfl
  case valueUnchecked => split at h <;> [skip; cases h]; one; rfl
  case valueUncheckedRef => split at h <;> [skip; cases h]; one; rfl
  case newUnchecked => split at h <;> [skip; cases h]; one; rfl
  case «from» => split at h <;> [skip; cases h]; one; rfl
  case neg => split at h <;> [skip; cases h]; one; rfl
  case abs => split at h <;> [skip; cases h]; one; rfl
  case default => split at h <;> [skip; cases h]; rw [args0] at ha; subst ha; rfl
  case zero => split at h <;> [skip; cases h]; rw [args0] at ha; subst ha; rfl
  case dimensionless => split at h <;> [skip; cases h]; one; rcases r with _ | ⟨x, _ | ⟨y, r⟩⟩ <;> rfl
  case powi => split at h <;> [skip; cases h]; one; rcases r with _ | ⟨x, _ | ⟨y, r⟩⟩ <;> rfl
  case squared => split at h <;> [skip; cases h]; one; rcases r with _ | ⟨x, _ | ⟨y, r⟩⟩ <;> rfl
  case cubed => split at h <;> [skip; cases h]; one; rcases r with _ | ⟨x, _ | ⟨y, r⟩⟩ <;> rfl
  case sqrt => split at h <;> [skip; cases h]; one; rcases r with _ | ⟨x, _ | ⟨y, r⟩⟩ <;> rfl
  case cbrt => split at h <;> [skip; cases h]; one; rcases r with _ | ⟨x, _ | ⟨y, r⟩⟩ <;> rfl
  case isPositive => split at h <;> [skip; cases h]; one; rcases r with _ | ⟨x, _ | ⟨y, r⟩⟩ <;> rfl
  case isPositiveOrZero => split at h <;> [skip; cases h]; one; rcases r with _ | ⟨x, _ | ⟨y, r⟩⟩ <;> rfl
  case isNegative => split at h <;> [skip; cases h]; one; rcases r with _ | ⟨x, _ | ⟨y, r⟩⟩ <;> rfl
  case isNegativeOrZero => split at h <;> [skip; cases h]; one; rcases r with _ | ⟨x, _ | ⟨y, r⟩⟩ <;> rfl
  case isNan => split at h <;> [skip; cases h]; one; rcases r with _ | ⟨x, _ | ⟨y, r⟩⟩ <;> rfl
  case min =>
    split at h <;> [skip; cases h]
    obtain ⟨v, w, rfl, hv, hw⟩ := args2.1 ha
    obtain ⟨r, rfl, -⟩ := hasTy_quantity.1 hv
    have : ∃ r', w.into0 = some r' := by
      split at h
      · split at h <;> [skip; cases h]
        obtain ⟨r', h1, -⟩ := into0_of ‹_› hw
        exact ⟨r', h1⟩
      · split at h <;> [skip; cases h]
        subst_vars
        obtain ⟨r', rfl, -⟩ := hasTy_quantity.1 hw
        exact ⟨r', rfl⟩
    obtain ⟨r', h1⟩ := this
    rcases into0_cases h1 with rfl | rfl <;> rfl
  case max =>
    split at h <;> [skip; cases h]
    obtain ⟨v, w, rfl, hv, hw⟩ := args2.1 ha
    obtain ⟨r, rfl, -⟩ := hasTy_quantity.1 hv
    have : ∃ r', w.into0 = some r' := by
      split at h
      · split at h <;> [skip; cases h]
        obtain ⟨r', h1, -⟩ := into0_of ‹_› hw
        exact ⟨r', h1⟩
      · split at h <;> [skip; cases h]
        subst_vars
        obtain ⟨r', rfl, -⟩ := hasTy_quantity.1 hw
        exact ⟨r', rfl⟩
    obtain ⟨r', h1⟩ := this
    rcases into0_cases h1 with rfl | rfl <;> rfl
  case clamp =>
    split at h <;> [skip; cases h]
    split at h <;> [skip; cases h]
    rename_i hc
    simp only [Bool.and_eq_true, decide_eq_true_eq] at hc
    obtain ⟨⟨hf, hi⟩, rfl⟩ := hc
    obtain ⟨_, _, _, rfl, hv, hw, hw'⟩ := args3.1 ha
    obtain ⟨r, rfl, hr⟩ := hasTy_quantity.1 hv
    obtain ⟨x, rfl⟩ := rawLen_float hf hr
    obtain ⟨a, h1, h2⟩ := into0_of hi hw
    obtain ⟨b, h3, h4⟩ := into0_of hi hw'
    obtain ⟨a, rfl⟩ := rawLen_float hf h2
    obtain ⟨b, rfl⟩ := rawLen_float hf h4
    rcases into0_cases h1 with rfl | rfl <;> rcases into0_cases h3 with rfl | rfl <;>
      (simp only [Fn.body, Val.into0]; rw [Option.map_map]; rfl)
  case vnew =>
    split at h
    · two
      rename_i r r'
      rcases r with _ | ⟨x, _ | ⟨y, r⟩⟩ <;> rcases r' with _ | ⟨x', _ | ⟨y', r'⟩⟩ <;> rfl
    · obtain ⟨u, v, w, rfl, hu, hv, hw⟩ := args3.1 ha
      obtain ⟨r, rfl, -⟩ := hasTy_quantity.1 hu
      obtain ⟨r', rfl, -⟩ := hasTy_quantity.1 hv
      obtain ⟨r'', rfl, -⟩ := hasTy_quantity.1 hw
      rcases r with _ | ⟨x, _ | ⟨y, r⟩⟩ <;> rcases r' with _ | ⟨x', _ | ⟨y', r'⟩⟩ <;> rcases r'' with _ | ⟨x'', _ | ⟨y'', r''⟩⟩ <;> rfl
    · cases h
  case newAxis a s =>
    split at h <;> [skip; cases h]
    split at h <;> [skip; cases h]
    rename_i hc
    simp only [Bool.and_eq_true, decide_eq_true_eq, axisOk] at hc
    obtain ⟨⟨hvec, -⟩, rfl⟩ := hc
    one
    obtain ⟨x, rfl⟩ := rawLen_float (Storage.base_isFloat _) hv
    have hb : ∀ s', (Fn.newAxis (E := E) a s).body (M := M) s' [.quantity [x]] = some (.quantity ((axisRaw M a s).map (Prims.mul M s.base x))) :=
      fun _ => mulAxis_run hvec
    rw [hb]
    rfl
  case axis a => split at h <;> [skip; cases h]; one; simp only [Fn.body]; rw [Option.map_map]; rfl
  case setAxis a =>
    split at h <;> [skip; cases h]
    two
    rename_i r r'
    rcases r' with _ | ⟨x', _ | ⟨y', r'⟩⟩ <;> rfl
  case length => split at h <;> [skip; cases h]; one; simp only [Fn.body]; rw [Option.map_map]; rfl
  case normalize => split at h <;> [skip; cases h]; one; simp only [Fn.body]; rw [Option.map_map]; rfl
  case distance => split at h <;> [skip; cases h]; two; simp only [Fn.body]; rw [Option.map_map]; rfl
  case distanceSquared => split at h <;> [skip; cases h]; two; simp only [Fn.body]; rw [Option.map_map]; rfl
  case dot => split at h <;> [skip; cases h]; two; simp only [Fn.body]; rw [Option.map_map]; rfl
  case valueIn => split at h <;> [skip; skip; cases h] <;> (two; rfl)
  case unitNew => split at h <;> [skip; skip; cases h] <;> (two; rfl)
  case unitMul => split at h <;> first | (two; rfl) | cases h
  case unitDiv => split at h <;> first | (two; rfl) | cases h
end Diman
