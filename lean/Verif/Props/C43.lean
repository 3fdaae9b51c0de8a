import Verif.Proofs.Api
/-!
# C43 — sums of quantities equal the sum of the stored values in iteration order
-/
namespace Diman
variable {E : Type} [FieldOps E] [DecidableEq E] {K M : Type} [Prims K M]

/-- Summing any number of quantities of one type: start with the zero of the storage type and add the stored values one by one, in
iteration order, component by component. -/
theorem C43_sum (n : Nat) (s : Storage) (d : DimVal E) (items : List (Raw K)) (h : ∀ r ∈ items, r.length = s.numDims) :
    (Fn.sum s d).run n (items.map fun _ => .quantity s d) (items.map (.quantity : Raw K → Val K M)) =
      some (.quantity (items.foldl (List.zipWith (Prims.add M s.base)) (List.replicate s.numDims (Prims.zero M s.base)))) := by
  have hs : (Fn.sum s d).sig n (items.map fun _ => .quantity s d) = some (.quantity s d) := by
    simp only [Fn.sig]; rw [if_pos (by rw [List.all_eq_true]; simp)]
  simp only [Fn.run, hs, Option.isNone_some]
  exact (sumLoop_eq items h _ (List.length_replicate ..)).1

/-- The sum of no items is the default value, for every storage type and dimension. -/
theorem C43_empty (n : Nat) (s : Storage) (d : DimVal E) :
    (Fn.sum s d).run n [] ([] : List (Val K M)) = (Fn.default s d).run n [] [] := rfl

/-- Only quantities of the summed type can be summed, and the sum has that type. -/
theorem C43_type {n : Nat} {s : Storage} {d : DimVal E} {tys : List (Ty E)} {t : Ty E} (h : (Fn.sum s d).sig n tys = some t) :
    t = .quantity s d ∧ ∀ u ∈ tys, u = .quantity s d := by
  simp only [Fn.sig] at h
  split at h
  · rename_i hall
    injection h with h
    exact ⟨h.symm, by simpa using hall⟩
  · cases h

/-- For floats: `((0 + x₁) + x₂) + …`. -/
theorem C43_sum_float (n : Nat) (s : Storage) (hs : s.isFloat = true) (d : DimVal E) (xs : List K) :
    (Fn.sum s d).run n (xs.map fun _ => .quantity s d) (xs.map fun x => (.quantity [x] : Val K M)) =
      some (.quantity [xs.foldl (Prims.add M s.base) (Prims.zero M s.base)]) := by
  have h := C43_sum (M := M) n s d (xs.map fun x => [x]) (by simp [Storage.numDims_float hs])
  simp only [List.map_map] at h
  rw [show ((fun _ => Ty.quantity s d) ∘ fun x : K => [x]) = fun _ => Ty.quantity s d from rfl,
    show ((Val.quantity : Raw K → Val K M) ∘ fun x => [x]) = fun x => .quantity [x] from rfl] at h
  rw [h]
  have aux : ∀ (l : List K) (a : K), (l.map fun x => [x]).foldl (List.zipWith (Prims.add M s.base)) [a] = [l.foldl (Prims.add M s.base) a] := by
    intro l
    induction l with
    | nil => intro a; rfl
    | cons x l ih => intro a; simpa using ih _
  rw [Storage.numDims_float hs]
  simp only [List.replicate_one, aux]

/-- Non-vacuity: three lengths. -/
example (x y z : K) : (Fn.sum .f64 [(1 : Int)]).run 1 [.quantity .f64 [1], .quantity .f64 [1], .quantity .f64 [1]]
    [.quantity [x], .quantity [y], (.quantity [z] : Val K M)] =
    some (.quantity [Prims.add M .f64 (Prims.add M .f64 (Prims.add M .f64 (Prims.zero M .f64) x) y) z]) :=
  C43_sum_float 1 .f64 rfl [(1 : Int)] [x, y, z]

end Diman
