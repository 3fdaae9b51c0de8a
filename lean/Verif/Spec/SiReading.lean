import Verif.Spec.SiTable
import Verif.Spec.Text
import Verif.Spec.Estimate
/-!
# What a text with SI units means, by the SI table (C64)
-/
namespace Diman

/-- A unit of the table with a prefix, to a power. -/
structure SiTerm where
  row : SiUnit
  pre : Option Prefix
  power : Int

/-- The word `w` is the term: the symbol of the prefix, the symbol of the unit, and `^power` unless the power is one. -/
def SiTerm.WrittenAs (t : SiTerm) (w : Str) : Prop :=
  t.row ∈ siUnits ∧ ∃ sym, t.row.symbol = some sym ∧ UnitWord w ((siPrefix? t.pre).symbol ++ sym) t.power

/-- The size of the unit in the coherent unit of its dimension. -/
def SiTerm.unit (t : SiTerm) : ℚ := 10 ^ (siPrefix? t.pre).power * t.row.value
/-- The exact number the term stands for. -/
def SiTerm.size (t : SiTerm) : ℚ := t.unit ^ t.power
/-- The exact number a list of terms stands for. -/
def siSize (ts : List SiTerm) : ℚ := (ts.map SiTerm.size).prod
/-- The exponents of a list of terms. -/
def siDim (ts : List SiTerm) (k : Str) : ℚ := (ts.map fun t => (t.power : ℚ) * t.row.dim.of k).sum

/-- Nothing comes near overflow or underflow: the number `q`, every term, the product of every initial segment of the terms, and the result are
between `2^-900` and `2^900`. -/
def Comfortable (q : ℚ) (ts : List SiTerm) : Prop :=
  moderate q = true ∧ (∀ t ∈ ts, moderate t.size = true) ∧ (∀ n, moderate (siSize (ts.take n)) = true) ∧ moderate (q * siSize ts) = true

/-- How many roundings reading the terms takes at most: 17 for the factor of each unit, one for each further multiplication. -/
def siRoundings (ts : List SiTerm) : Nat := (ts.map fun t => 18 * t.power.natAbs + 2).sum + 1

/-- The units of src/si.rs that are declared with metric prefixes. -/
def siPrefixed : List Str := [
  str!"meter", str!"second", str!"gram", str!"ampere", str!"kelvin", str!"mole", str!"candela", str!"radian", str!"steradian", str!"hertz",
  str!"newton", str!"pascal", str!"joule", str!"watt", str!"coulomb", str!"volt", str!"farad", str!"ohm", str!"siemens", str!"weber", str!"tesla",
  str!"henry", str!"lumen", str!"lux", str!"becquerel", str!"gray", str!"sievert", str!"katal", str!"litre", str!"tonne", str!"electronvolt",
  str!"joule_per_kilogram", str!"joule_per_kilogram_kelvin", str!"meter_per_second"]

/-- A prefix is only put before units that are declared with prefixes. -/
def SiTerm.Declared (t : SiTerm) : Prop := t.pre = none ∨ t.row.name ∈ siPrefixed

end Diman
