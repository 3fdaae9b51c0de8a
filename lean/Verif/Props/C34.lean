import Verif.Spec.Descr
import Mathlib.Tactic
/-!
# C34 — MPI and HDF5 descriptors describe the stored data
-/
namespace Diman
variable {E K : Type}

/-- **C34, MPI.** For every storage type and dimension, the datatype's type map is exactly the elements of the storage type. -/
theorem C34_mpi_type_map (s : Storage) (d : DimVal E) : (mpiDatatype s d).typeMap = some s.elements := by
  cases s <;> rfl

theorem size_append (a b : List FloatTy) : size (a ++ b) = size a + size b := by simp [size]

theorem image_length {enc : FloatTy → K → List UInt8} {dec : FloatTy → List UInt8 → K} (h : Encoding enc dec) :
    ∀ (ts : List FloatTy) (xs : List K), xs.length = ts.length → (image enc ts xs).length = size ts
  | [], [], _ => rfl
  | t :: ts, x :: xs, hl => by
    have := image_length h ts xs (by simpa using hl)
    simp [image, h.size, this, size]

theorem read_image {enc : FloatTy → K → List UInt8} {dec : FloatTy → List UInt8 → K} (h : Encoding enc dec) :
    ∀ (ts : List FloatTy) (xs : List K) (rest : List UInt8), xs.length = ts.length → readElements dec ts (image enc ts xs ++ rest) = xs
  | [], [], _, _ => rfl
  | t :: ts, x :: xs, rest, hl => by
    have := read_image h ts xs rest (by simpa using hl)
    have e1 : ((enc t x ++ image enc ts xs) ++ rest).take t.bytes = enc t x := by
      rw [List.append_assoc, ← h.size t x, List.take_left']
      rfl
    have e2 : ((enc t x ++ image enc ts xs) ++ rest).drop t.bytes = image enc ts xs ++ rest := by
      rw [List.append_assoc, ← h.size t x, List.drop_left']
      rfl
    simp only [readElements, image]
    rw [e1, e2, h.dec_enc, this]

/-- **C34, MPI buffers.** A buffer of quantities of one type (any storage, any dimension, any length), sent with the datatype repeated
once per quantity, is read back element by element as the quantities' components, and the buffer is exactly as long as declared. -/
theorem C34_mpi_transfer {enc : FloatTy → K → List UInt8} {dec : FloatTy → List UInt8 → K} (encoding : Encoding enc dec)
    (s : Storage) (d : DimVal E) (buffer : List (Raw K)) (components : ∀ q ∈ buffer, q.length = s.elements.length) :
    ∃ map, (mpiDatatype s d).typeMap = some map ∧
      readElements dec (List.replicate buffer.length map).flatten ((buffer.map (image enc s.elements)).flatten) = buffer.flatten ∧
      ((buffer.map (image enc s.elements)).flatten).length = buffer.length * size map := by
  refine ⟨_, C34_mpi_type_map s d, ?_, ?_⟩
  · have key : (buffer.map (image enc s.elements)).flatten = image enc (List.replicate buffer.length s.elements).flatten buffer.flatten := by
      induction buffer with
      | nil => rfl
      | cons q l ih =>
        have ih := ih fun q hq => components q (by simp [hq])
        simp only [List.map_cons, List.flatten_cons, List.length_cons, List.replicate_succ]
        rw [ih]
        have : ∀ (ts ts' : List FloatTy) (xs ys : List K), xs.length = ts.length →
            image enc (ts ++ ts') (xs ++ ys) = image enc ts xs ++ image enc ts' ys := by
          intro ts
          induction ts with
          | nil => intro ts' xs ys h; rw [List.length_eq_zero_iff.1 h]; rfl
          | cons t ts iht =>
            intro ts' xs ys h
            match xs with
            | x :: xs => simp [image, iht ts' xs ys (by simpa using h)]
        rw [this _ _ _ _ (components q (by simp))]
    rw [key]
    have hl : buffer.flatten.length = (List.replicate buffer.length s.elements).flatten.length := by
      clear key
      induction buffer with
      | nil => rfl
      | cons q l ih =>
        simp only [List.flatten_cons, List.length_cons, List.replicate_succ, List.length_append]
        rw [ih fun q hq => components q (by simp [hq]), components q (by simp)]
    have := read_image encoding _ _ [] hl
    rwa [List.append_nil] at this
  · induction buffer with
    | nil => simp
    | cons q l ih =>
      simp only [List.map_cons, List.flatten_cons, List.length_append, List.length_cons]
      rw [ih fun q hq => components q (by simp [hq]), image_length encoding _ _ (components q (by simp))]
      ring

/-- The value of a quantity as HDF5 should see it: a float, or an array of the components. -/
def h5View (s : Storage) (q : Raw K) : H5Value K :=
  match s.isFloat, q with
  | true, [x] => .float x
  | _, q => .array (q.map .float)

/-- **C34, HDF5.** For every storage type and dimension, a reader of the descriptor's type finds in the quantity's bytes exactly the float, or
the array of its components; the descriptor's size is the size of the storage type. -/
theorem C34_hdf5 {enc : FloatTy → K → List UInt8} {dec : FloatTy → List UInt8 → K} (encoding : Encoding enc dec)
    (s : Storage) (d : DimVal E) (q : Raw K) (components : q.length = s.elements.length) :
    (h5Descriptor s d).read dec (image enc s.elements q) = h5View s q ∧
      (h5Descriptor s d).bytes = size s.elements := by
  have e4 : ∀ x, (enc .f32 x).length = 4 := fun x => encoding.size .f32 x
  have e8 : ∀ x, (enc .f64 x).length = 8 := fun x => encoding.size .f64 x
  have d1 : ∀ t (x : K) (l : List UInt8) , dec t ((enc t x ++ l).take t.bytes) = x := by
    intro t x l
    rw [← encoding.size t x, List.take_left', encoding.dec_enc]; rfl
  have d2 : ∀ t (x : K) (l : List UInt8) , (enc t x ++ l).drop t.bytes = l := by
    intro t x l
    rw [← encoding.size t x, List.drop_left']; rfl
  have d3 : ∀ t (x y : K) (l : List UInt8) , (enc t x ++ (enc t y ++ l)).drop (2 * t.bytes) = l := by
    intro t x y l
    rw [two_mul, ← List.drop_drop, d2, d2]
  refine ⟨?_, by cases s <;> rfl⟩
  have hr2 : List.range 2 = [0, 1] := rfl
  have hr3 : List.range 3 = [0, 1, 2] := rfl
  cases s
  · obtain ⟨x, rfl⟩ := List.length_eq_one_iff.1 components
    simp [h5Descriptor, Storage.isFloat, H5Type.read, h5View, Storage.elements, image, FloatTy.hdf5Type, FloatSize.type, Storage.base, encoding.dec_enc]
  · obtain ⟨x, rfl⟩ := List.length_eq_one_iff.1 components
    simp [h5Descriptor, Storage.isFloat, H5Type.read, h5View, Storage.elements, image, FloatTy.hdf5Type, FloatSize.type, Storage.base, encoding.dec_enc]
  all_goals
    first
    | obtain ⟨x, y, rfl⟩ := List.length_eq_two.1 components
    | obtain ⟨x, y, z, rfl⟩ := List.length_eq_three.1 components
    simp only [h5Descriptor, Storage.isFloat, H5Type.read, h5View, Storage.elements, image, FloatTy.hdf5Type, FloatSize.type, Storage.base,
      Storage.numDims, hr2, hr3, H5Type.bytes, List.map_cons, List.map_nil, zero_mul, List.drop_zero, one_mul, Bool.false_eq_true, if_false]
    simp only [d1, d2, d3]

/-- **C34, independence.** The descriptors do not depend on the dimension. -/
theorem C34_dimension_irrelevant (s : Storage) (d d' : DimVal E) :
    mpiDatatype s d = mpiDatatype s d' ∧ h5Descriptor s d = h5Descriptor s d' := ⟨rfl, rfl⟩

/-- An encoding exists: one byte pattern per truth value, for a two-element "float". -/
example : ∃ (enc : FloatTy → Bool → List UInt8) (dec : FloatTy → List UInt8 → Bool), Encoding enc dec :=
  ⟨fun t b => List.replicate t.bytes (if b then 1 else 0), fun _ l => l.head? == some 1,
    fun t b => by simp, fun t b => by cases t <;> cases b <;> rfl⟩

end Diman
