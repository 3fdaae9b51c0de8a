import Verif.Proofs.Eval
/-!
# A sample unit system
The unit system of tests/example_system/mod.rs:3-41, statement by statement, with exact rational conversion factors. It is used to
show that the hypotheses of the resolver theorems are met by a real, non-trivial input.
-/
namespace Diman.Sample
open Diman

/-- Exact rational conversion factors (integer exponents). -/
@[reducible] def exactMag : MagOps Int ℚ where
  one := 1
  mul := (· * ·)
  div := (· / ·)
  pow x e := x ^ e
  isOne x := decide (x = 1)

/-- Exact prefix factors. -/
def exactFactor : Prefix → ℚ := Prefix.literal

/-- identifier leaf -/
def v {C : Type} (s : Str) : Factor (Atom C) Int := .value (.other s)
/-- literal leaf -/
def c {C : Type} (x : C) : Factor (Atom C) Int := .value (.concrete x)
/-- power of an identifier -/
def pw {C : Type} (s : Str) (e : Int) : Factor (Atom C) Int := .power (.other s) e

/-- A base unit statement. -/
def baseUnit (name sym dim : Str) (prefixes : List Prefix) : UnitTemplate Int ℚ :=
  ⟨name, some sym, [], prefixes, some dim, .base dim⟩
/-- A derived unit statement. -/
def unit (name : Str) (e : Expr (Atom ℚ) Int) (sym : Option Str := none) (aliases : List Str := []) (ann : Option Str := none) :
    UnitTemplate Int ℚ := ⟨name, sym, aliases, [], ann, .expression e⟩

/-- tests/example_system/mod.rs:3-41 -/
def sample : UnresolvedTemplates Int ℚ where
  quantityTypes := [str!"Quantity"]
  dimensionTypes := [str!"Dimension"]
  dimensions := [
    ⟨str!"Length", .base ()⟩, ⟨str!"Time", .base ()⟩, ⟨str!"Mass", .base ()⟩, ⟨str!"Temperature", .base ()⟩,
    ⟨str!"Dimensionless", .expression (.value (c ()))⟩,
    ⟨str!"Velocity", .expression (.binary (.value (v (str!"Length"))) .div (v (str!"Time")))⟩,
    ⟨str!"Energy", .expression (.binary (.binary (.value (v (str!"Mass"))) .mul (v (str!"Velocity"))) .mul (v (str!"Velocity")))⟩,
    ⟨str!"Area", .expression (.value (pw (str!"Length") 2))⟩,
    ⟨str!"Volume", .expression (.value (pw (str!"Length") 3))⟩,
    ⟨str!"Force", .expression (.binary (.value (v (str!"Energy"))) .div (v (str!"Length")))⟩,
    ⟨str!"InverseTemperature", .expression (.binary (.value (c ())) .div (v (str!"Temperature")))⟩]
  units := [
    unit (str!"dimensionless") (.value (c 1)),
    baseUnit (str!"meters") (str!"m") (str!"Length") (metricPrefixes []),
    baseUnit (str!"seconds") (str!"s") (str!"Time") [],
    unit (str!"meters_per_second") (.binary (.value (v (str!"meters"))) .div (v (str!"seconds"))),
    unit (str!"joules") (.binary (.value (v (str!"kilograms"))) .mul (pw (str!"meters_per_second") 2)) (some (str!"J")),
    baseUnit (str!"kilograms") (str!"kg") (str!"Mass") [],
    unit (str!"grams") (.binary (.value (c (1 / 1000))) .mul (v (str!"kilograms"))),
    unit (str!"square_meters") (.value (pw (str!"meters") 2)),
    unit (str!"cubic_meters") (.value (pw (str!"meters") 3)),
    baseUnit (str!"kelvins") (str!"K") (str!"Temperature") [],
    unit (str!"newtons") (.binary (.value (v (str!"joules"))) .div (v (str!"meters")))]
  constants := [
    ⟨str!"SOLAR_MASS", .binary (.value (c 1988477000000000000000000000000)) .mul (v (str!"kilograms")), none⟩,
    ⟨str!"SOLAR_MASS_GRAMS", .binary (.value (c 1988477000000000000000000000000000)) .mul (v (str!"grams")), none⟩,
    ⟨str!"SOLAR_MASS_AWKWARD", .binary (.binary (.value (c 1988477000000000000000000000000)) .mul (v (str!"kilograms"))) .div
      (.paren (.binary (.value (v (str!"seconds"))) .div (v (str!"seconds")))), none⟩]

attribute [local instance] exactMag

/-- The sample system as expanded definitions. -/
def sampleDefs : UnresolvedDefs Int ℚ := UnresolvedTemplates.expand 1 exactFactor sample

set_option maxRecDepth 100000 in
theorem sample_accepted : ∃ defs, runUnitSystem exactFactor sample = some (defs, []) := by
  have h : (resolveDefsFuel sampleDefs).map Prod.snd = some [] := by decide +kernel
  unfold runUnitSystem
  rw [resolveDefs_eq_fuel]
  change ∃ defs, resolveDefsFuel sampleDefs = some (defs, [])
  cases hr : resolveDefsFuel sampleDefs with
  | none => rw [hr] at h; simp at h
  | some p => rw [hr] at h; simp at h; exact ⟨p.1, by rw [← h]⟩

end Diman.Sample
