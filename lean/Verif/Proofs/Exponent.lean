import Verif.Spec.Dims
import Verif.Proofs.Ratio
/-! Both exponent types are lawful. -/
namespace Diman

/-- Integer exponents. -/
instance : LawfulExponent Int where
  val z := (z : ℚ)
  Good _ := True
  Canon _ := True
  canon_good _ := trivial
  canon_ext _ _ h := by exact_mod_cast h
  one_canon := trivial
  zero_canon := trivial
  one_val := by simp [Exponent.one]
  zero_val := by simp [Exponent.zero]
  ofInt_canon _ := trivial
  ofInt_val _ := rfl
  add_good _ _ h := ⟨trivial, by rw [(i64_some h).1]; push_cast; rfl⟩
  mul_good _ _ h := ⟨trivial, by rw [(i64_some h).1]; push_cast; rfl⟩
  neg_good _ h := ⟨trivial, by rw [(i64_some h).1]; push_cast; rfl⟩
  add_canon _ _ _ := trivial
  mul_canon _ _ _ := trivial
  neg_canon _ _ := trivial

/-- Rational exponents. -/
instance : LawfulExponent Ratio where
  val := Ratio.val
  Good := Ratio.Defined
  Canon := Ratio.Canonical
  canon_good h := h.defined
  canon_ext := Ratio.canonical_ext
  one_canon := by show Ratio.Canonical ⟨1, 1⟩; decide
  zero_canon := by show Ratio.Canonical ⟨0, 1⟩; decide
  one_val := by simp [Exponent.one, Ratio.val]
  zero_val := by simp [Exponent.zero, Ratio.val]
  ofInt_canon i := by simp [Exponent.ofInt, Ratio.int, Ratio.Canonical]
  ofInt_val i := by simp [Exponent.ofInt, Ratio.int, Ratio.val]
  add_good ha hb h := ⟨Ratio.add_defined ha hb h, Ratio.add_val ha hb h⟩
  mul_good ha hb h := ⟨Ratio.mul_defined ha hb h, Ratio.mul_val h⟩
  neg_good ha h := ⟨by rw [(Ratio.neg_some h).1]; exact ha, Ratio.neg_val h⟩
  add_canon := Ratio.add_canonical
  mul_canon := Ratio.mul_canonical
  neg_canon := Ratio.neg_canonical

end Diman
