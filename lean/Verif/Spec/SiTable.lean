import Verif.Model.Lexer
import Verif.Model.SiText
import Verif.Spec.Dims
import Verif.Spec.Float
/-!
# The SI tables (C46)
Quantities, units, prefixes, symbols and values as in the SI brochure (9th edition, tables 2 to 8) and ISO 80000, written down
independently of src/si.rs. Names are the crate's. Deviations of the crate from the brochure that are choices of notation are followed:
the symbol of the day is `day` (brochure: `d`), of the degree `deg` (brochure: `°`), of the litre `l`, and arc minute, arc second, are and
tonne have no symbol. `π` is the decimal 3.141592653589793 that the crate uses.
-/
namespace Diman

/-- Exponents of length, mass, time, current, temperature, amount of substance, luminous intensity. -/
structure SiExps where
  (length mass time current temperature amount intensity : Int)
deriving DecidableEq

/-- The exponents as a function of the (generated, snake case) name of the base dimension. -/
def SiExps.table (e : SiExps) : List (Str × Int) :=
  [(str!"length", e.length), (str!"mass", e.mass), (str!"time", e.time), (str!"current", e.current), (str!"temperature", e.temperature),
   (str!"amount_of_substance", e.amount), (str!"luminous_intensity", e.intensity)]
def SiExps.of (e : SiExps) (k : Str) : Int :=
  match e.table.find? (fun p => decide (p.1 = k)) with
  | some p => p.2
  | none => 0

/-- The crate's approximation of π. -/
def siPi : ℚ := 3141592653589793 / 10 ^ 15

/-- Quantities and their dimensions. -/
def siDimensions : List (Str × SiExps) := [
  (str!"Length", ⟨1, 0, 0, 0, 0, 0, 0⟩),
  (str!"Time", ⟨0, 0, 1, 0, 0, 0, 0⟩),
  (str!"Mass", ⟨0, 1, 0, 0, 0, 0, 0⟩),
  (str!"Temperature", ⟨0, 0, 0, 0, 1, 0, 0⟩),
  (str!"Current", ⟨0, 0, 0, 1, 0, 0, 0⟩),
  (str!"AmountOfSubstance", ⟨0, 0, 0, 0, 0, 1, 0⟩),
  (str!"LuminousIntensity", ⟨0, 0, 0, 0, 0, 0, 1⟩),
  (str!"Dimensionless", ⟨0, 0, 0, 0, 0, 0, 0⟩),
  (str!"Angle", ⟨0, 0, 0, 0, 0, 0, 0⟩),
  (str!"SolidAngle", ⟨0, 0, 0, 0, 0, 0, 0⟩),
  (str!"Area", ⟨2, 0, 0, 0, 0, 0, 0⟩),
  (str!"Volume", ⟨3, 0, 0, 0, 0, 0, 0⟩),
  (str!"Wavenumber", ⟨-1, 0, 0, 0, 0, 0, 0⟩),
  (str!"Frequency", ⟨0, 0, -1, 0, 0, 0, 0⟩),
  (str!"Velocity", ⟨1, 0, -1, 0, 0, 0, 0⟩),
  (str!"Acceleration", ⟨1, 0, -2, 0, 0, 0, 0⟩),
  (str!"Jerk", ⟨1, 0, -3, 0, 0, 0, 0⟩),
  (str!"FlowRate", ⟨3, 0, -1, 0, 0, 0, 0⟩),
  (str!"Momentum", ⟨1, 1, -1, 0, 0, 0, 0⟩),
  (str!"Force", ⟨1, 1, -2, 0, 0, 0, 0⟩),
  (str!"Energy", ⟨2, 1, -2, 0, 0, 0, 0⟩),
  (str!"Power", ⟨2, 1, -3, 0, 0, 0, 0⟩),
  (str!"Pressure", ⟨-1, 1, -2, 0, 0, 0, 0⟩),
  (str!"Action", ⟨2, 1, -1, 0, 0, 0, 0⟩),
  (str!"MassDensity", ⟨-3, 1, 0, 0, 0, 0, 0⟩),
  (str!"MomentOfInertia", ⟨2, 1, 0, 0, 0, 0, 0⟩),
  (str!"AngularMomentum", ⟨2, 1, -1, 0, 0, 0, 0⟩),
  (str!"Torque", ⟨2, 1, -2, 0, 0, 0, 0⟩),
  (str!"EnergyDensity", ⟨-1, 1, -2, 0, 0, 0, 0⟩),
  (str!"MassFlow", ⟨0, 1, -1, 0, 0, 0, 0⟩),
  (str!"ElectricCharge", ⟨0, 0, 1, 1, 0, 0, 0⟩),
  (str!"Voltage", ⟨2, 1, -3, -1, 0, 0, 0⟩),
  (str!"Capacitance", ⟨-2, -1, 4, 2, 0, 0, 0⟩),
  (str!"ElectricResistance", ⟨2, 1, -3, -2, 0, 0, 0⟩),
  (str!"Resistivity", ⟨3, 1, -3, -2, 0, 0, 0⟩),
  (str!"ElectricConductance", ⟨-2, -1, 3, 2, 0, 0, 0⟩),
  (str!"Conductivity", ⟨-3, -1, 3, 2, 0, 0, 0⟩),
  (str!"MagneticFluxDensity", ⟨0, 1, -2, -1, 0, 0, 0⟩),
  (str!"MagneticFlux", ⟨2, 1, -2, -1, 0, 0, 0⟩),
  (str!"MagneticFieldStrength", ⟨-1, 0, 0, 1, 0, 0, 0⟩),
  (str!"Inductance", ⟨2, 1, -2, -2, 0, 0, 0⟩),
  (str!"ElectricChargeDensity", ⟨-3, 0, 1, 1, 0, 0, 0⟩),
  (str!"CurrentDensity", ⟨-2, 0, 0, 1, 0, 0, 0⟩),
  (str!"ElectricDipoleMoment", ⟨1, 0, 1, 1, 0, 0, 0⟩),
  (str!"ElectricQuadrupoleMoment", ⟨2, 0, 1, 1, 0, 0, 0⟩),
  (str!"MagneticDipoleMoment", ⟨2, 0, 0, 1, 0, 0, 0⟩),
  (str!"ElectricFieldStrength", ⟨1, 1, -3, -1, 0, 0, 0⟩),
  (str!"ElectricDisplacementFieldStrength", ⟨-2, 0, 1, 1, 0, 0, 0⟩),
  (str!"ElectricPermittivity", ⟨-3, -1, 4, 2, 0, 0, 0⟩),
  (str!"MagneticPermeability", ⟨1, 1, -2, -2, 0, 0, 0⟩),
  (str!"Polarizability", ⟨0, -1, 4, 2, 0, 0, 0⟩),
  (str!"ElectricMobility", ⟨0, -1, 2, 1, 0, 0, 0⟩),
  (str!"Entropy", ⟨2, 1, -2, 0, -1, 0, 0⟩),
  (str!"HeatCapacity", ⟨2, 1, -2, 0, -1, 0, 0⟩),
  (str!"SpecificHeatCapacity", ⟨2, 0, -2, 0, -1, 0, 0⟩),
  (str!"ThermalConductivity", ⟨1, 1, -3, 0, -1, 0, 0⟩),
  (str!"ThermalTransmittance", ⟨0, 1, -3, 0, -1, 0, 0⟩),
  (str!"MolarMass", ⟨0, 1, 0, 0, 0, -1, 0⟩),
  (str!"MolarVolume", ⟨3, 0, 0, 0, 0, -1, 0⟩),
  (str!"CatalyticActivity", ⟨0, 0, -1, 0, 0, 1, 0⟩),
  (str!"Molarity", ⟨-3, 0, 0, 0, 0, 1, 0⟩),
  (str!"Molality", ⟨0, -1, 0, 0, 0, 1, 0⟩),
  (str!"ChemicalPotential", ⟨2, 1, -2, 0, 0, -1, 0⟩),
  (str!"MolarHeatCapacity", ⟨2, 1, -2, 0, -1, -1, 0⟩),
  (str!"LuminousFlux", ⟨0, 0, 0, 0, 0, 0, 1⟩),
  (str!"Illuminance", ⟨-2, 0, 0, 0, 0, 0, 1⟩),
  (str!"Irradiance", ⟨0, 1, -3, 0, 0, 0, 0⟩),
  (str!"Activity", ⟨0, 0, -1, 0, 0, 0, 0⟩),
  (str!"AbsorbedDose", ⟨2, 0, -2, 0, 0, 0, 0⟩),
  (str!"EquivalentDose", ⟨2, 0, -2, 0, 0, 0, 0⟩),
  (str!"SpecificActivity", ⟨0, -1, -1, 0, 0, 0, 0⟩),
  (str!"DynamicViscosity", ⟨-1, 1, -1, 0, 0, 0, 0⟩),
  (str!"KinematicViscosity", ⟨2, 0, -1, 0, 0, 0, 0⟩),
  (str!"MomentumDensity", ⟨-2, 1, -1, 0, 0, 0, 0⟩),
  (str!"SpecificEnergy", ⟨2, 0, -2, 0, 0, 0, 0⟩),
  (str!"MassFlux", ⟨-2, 1, -1, 0, 0, 0, 0⟩),
  (str!"EnergyFlux", ⟨0, 1, -3, 0, 0, 0, 0⟩)]

/-- A unit: name, symbol, value in the coherent unit of its dimension, dimension. -/
structure SiUnit where
  name : Str
  symbol : Option Str
  value : ℚ
  dim : SiExps

/-- Base units, units with special names, units accepted for use with the SI, and the crate's spelled-out derived units. -/
def siUnits : List SiUnit := [
  ⟨str!"meter", some (str!"m"), 1, ⟨1, 0, 0, 0, 0, 0, 0⟩⟩,
  ⟨str!"second", some (str!"s"), 1, ⟨0, 0, 1, 0, 0, 0, 0⟩⟩,
  ⟨str!"kilogram", some (str!"kg"), 1, ⟨0, 1, 0, 0, 0, 0, 0⟩⟩,
  ⟨str!"gram", some (str!"g"), 1/1000, ⟨0, 1, 0, 0, 0, 0, 0⟩⟩,
  ⟨str!"ampere", some (str!"A"), 1, ⟨0, 0, 0, 1, 0, 0, 0⟩⟩,
  ⟨str!"kelvin", some (str!"K"), 1, ⟨0, 0, 0, 0, 1, 0, 0⟩⟩,
  ⟨str!"mole", some (str!"mol"), 1, ⟨0, 0, 0, 0, 0, 1, 0⟩⟩,
  ⟨str!"candela", some (str!"cd"), 1, ⟨0, 0, 0, 0, 0, 0, 1⟩⟩,
  ⟨str!"radian", some (str!"rad"), 1, ⟨0, 0, 0, 0, 0, 0, 0⟩⟩,
  ⟨str!"steradian", some (str!"sr"), 1, ⟨0, 0, 0, 0, 0, 0, 0⟩⟩,
  ⟨str!"hertz", some (str!"Hz"), 1, ⟨0, 0, -1, 0, 0, 0, 0⟩⟩,
  ⟨str!"newton", some (str!"N"), 1, ⟨1, 1, -2, 0, 0, 0, 0⟩⟩,
  ⟨str!"pascal", some (str!"Pa"), 1, ⟨-1, 1, -2, 0, 0, 0, 0⟩⟩,
  ⟨str!"joule", some (str!"J"), 1, ⟨2, 1, -2, 0, 0, 0, 0⟩⟩,
  ⟨str!"watt", some (str!"W"), 1, ⟨2, 1, -3, 0, 0, 0, 0⟩⟩,
  ⟨str!"coulomb", some (str!"C"), 1, ⟨0, 0, 1, 1, 0, 0, 0⟩⟩,
  ⟨str!"volt", some (str!"V"), 1, ⟨2, 1, -3, -1, 0, 0, 0⟩⟩,
  ⟨str!"farad", some (str!"F"), 1, ⟨-2, -1, 4, 2, 0, 0, 0⟩⟩,
  ⟨str!"ohm", some (str!"Ω"), 1, ⟨2, 1, -3, -2, 0, 0, 0⟩⟩,
  ⟨str!"siemens", some (str!"S"), 1, ⟨-2, -1, 3, 2, 0, 0, 0⟩⟩,
  ⟨str!"weber", some (str!"Wb"), 1, ⟨2, 1, -2, -1, 0, 0, 0⟩⟩,
  ⟨str!"tesla", some (str!"T"), 1, ⟨0, 1, -2, -1, 0, 0, 0⟩⟩,
  ⟨str!"henry", some (str!"H"), 1, ⟨2, 1, -2, -2, 0, 0, 0⟩⟩,
  ⟨str!"lumen", some (str!"lm"), 1, ⟨0, 0, 0, 0, 0, 0, 1⟩⟩,
  ⟨str!"lux", some (str!"lx"), 1, ⟨-2, 0, 0, 0, 0, 0, 1⟩⟩,
  ⟨str!"becquerel", some (str!"Bq"), 1, ⟨0, 0, -1, 0, 0, 0, 0⟩⟩,
  ⟨str!"gray", some (str!"Gy"), 1, ⟨2, 0, -2, 0, 0, 0, 0⟩⟩,
  ⟨str!"sievert", some (str!"Sv"), 1, ⟨2, 0, -2, 0, 0, 0, 0⟩⟩,
  ⟨str!"katal", some (str!"kat"), 1, ⟨0, 0, -1, 0, 0, 1, 0⟩⟩,
  ⟨str!"minute", some (str!"min"), 60, ⟨0, 0, 1, 0, 0, 0, 0⟩⟩,
  ⟨str!"hour", some (str!"h"), 3600, ⟨0, 0, 1, 0, 0, 0, 0⟩⟩,
  ⟨str!"day", some (str!"day"), 86400, ⟨0, 0, 1, 0, 0, 0, 0⟩⟩,
  ⟨str!"astronomicalunit", some (str!"au"), 149597870700, ⟨1, 0, 0, 0, 0, 0, 0⟩⟩,
  ⟨str!"degree", some (str!"deg"), siPi/180, ⟨0, 0, 0, 0, 0, 0, 0⟩⟩,
  ⟨str!"arcminute", none, siPi/(180*60), ⟨0, 0, 0, 0, 0, 0, 0⟩⟩,
  ⟨str!"arcsecond", none, siPi/(180*60*60), ⟨0, 0, 0, 0, 0, 0, 0⟩⟩,
  ⟨str!"are", none, 100, ⟨2, 0, 0, 0, 0, 0, 0⟩⟩,
  ⟨str!"hectare", some (str!"ha"), 10000, ⟨2, 0, 0, 0, 0, 0, 0⟩⟩,
  ⟨str!"litre", some (str!"l"), 1/1000, ⟨3, 0, 0, 0, 0, 0, 0⟩⟩,
  ⟨str!"tonne", none, 1000, ⟨0, 1, 0, 0, 0, 0, 0⟩⟩,
  ⟨str!"dalton", some (str!"Da"), 166053906660/10^38, ⟨0, 1, 0, 0, 0, 0, 0⟩⟩,
  ⟨str!"electronvolt", some (str!"eV"), 1602176634/10^28, ⟨2, 1, -2, 0, 0, 0, 0⟩⟩,
  ⟨str!"joule_per_kilogram", none, 1, ⟨2, 0, -2, 0, 0, 0, 0⟩⟩,
  ⟨str!"joule_per_kilogram_kelvin", none, 1, ⟨2, 0, -2, 0, -1, 0, 0⟩⟩,
  ⟨str!"meter_per_second", none, 1, ⟨1, 0, -1, 0, 0, 0, 0⟩⟩,
  ⟨str!"square_meter", none, 1, ⟨2, 0, 0, 0, 0, 0, 0⟩⟩,
  ⟨str!"cubic_meter", none, 1, ⟨3, 0, 0, 0, 0, 0, 0⟩⟩]

/-- A metric prefix: name, symbol, power of ten. -/
structure SiPrefix where
  name : Str
  symbol : Str
  power : Int

/-- SI brochure table 7, as far as the crate goes. -/
def siPrefix : Prefix → SiPrefix
  | .exa => ⟨str!"exa", str!"E", 18⟩
  | .peta => ⟨str!"peta", str!"P", 15⟩
  | .tera => ⟨str!"tera", str!"T", 12⟩
  | .giga => ⟨str!"giga", str!"G", 9⟩
  | .mega => ⟨str!"mega", str!"M", 6⟩
  | .kilo => ⟨str!"kilo", str!"k", 3⟩
  | .hecto => ⟨str!"hecto", str!"h", 2⟩
  | .deca => ⟨str!"deca", str!"da", 1⟩
  | .deci => ⟨str!"deci", str!"d", -1⟩
  | .centi => ⟨str!"centi", str!"c", -2⟩
  | .milli => ⟨str!"milli", str!"m", -3⟩
  | .micro => ⟨str!"micro", str!"μ", -6⟩
  | .nano => ⟨str!"nano", str!"n", -9⟩
  | .pico => ⟨str!"pico", str!"p", -12⟩
  | .femto => ⟨str!"femto", str!"f", -15⟩
  | .atto => ⟨str!"atto", str!"a", -18⟩
/-- Nothing in front: `10^0`. -/
def siPrefix? : Option Prefix → SiPrefix
  | none => ⟨[], [], 0⟩
  | some p => siPrefix p

variable (E M : Type) [Exponent E] [LawfulExponent E] [ReadExponent E] [MagOps E M]

/-- "The units of src/si.rs are the SI units", with `Value prefixPower value mag` saying what a generated factor `mag` must be for a unit of
the given value with a prefix of the given power of ten. -/
def SiFaithful (mag : Number → M) (factor : Prefix → M) (Value : Int → ℚ → M → Prop) : Prop :=
  ∃ tokens statements defs,
    lex siLines = some tokens ∧ parseSystem (ReadExponent.rational E) tokens = some statements ∧
    unitSystem (E := E) mag factor tokens = .done (defs, []) ∧
    -- every dimension of the module is one of the table, with its exponents, and vice versa
    (∀ D ∈ defs.dimensions, ∃ r ∈ siDimensions, D.name = r.1 ∧ ∀ k, D.dims.expo k = r.2.of k) ∧
    (∀ r ∈ siDimensions, ∃ D ∈ defs.dimensions, D.name = r.1) ∧
    -- every unit statement is one of the table, and all the units made from it (under each name, with each prefix) have the symbol, the
    -- dimension and the value the table says
    (∀ u ∈ statements.units, ∃ r ∈ siUnits, u.name = r.name ∧
      ∀ pre ∈ none :: u.prefixes.map some, ∀ base ∈ u.name :: u.aliases,
        ∃ U ∈ defs.units, U.name = (siPrefix? pre).name ++ base ∧ (∀ k, U.dims.expo k = r.dim.of k) ∧
          Value (siPrefix? pre).power r.value U.mag ∧
          (base = u.name → U.symbol = r.symbol.map ((siPrefix? pre).symbol ++ ·)) ∧ (base ≠ u.name → U.symbol = none)) ∧
    (∀ r ∈ siUnits, ∃ u ∈ statements.units, u.name = r.name)

end Diman
