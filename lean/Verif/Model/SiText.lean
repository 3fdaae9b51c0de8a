import Verif.Model.Str
/-!
# The text of src/si.rs
Generated by tools/si.py: the argument of `unit_system!( ... )`, lines 4-317 of src/si.rs, one string per line.
-/
namespace Diman

/-- src/si.rs:4-23 -/
def siText00 : List (List Char) :=
  [str!"    quantity_type Quantity;",
   str!"    dimension_type Dimension;",
   str!"",
   str!"    dimension Length;",
   str!"    dimension Time;",
   str!"    dimension Mass;",
   str!"    dimension Temperature;",
   str!"    dimension Current;",
   str!"    dimension AmountOfSubstance;",
   str!"    dimension LuminousIntensity;",
   str!"    dimension Dimensionless = 1;",
   str!"",
   str!"    dimension Angle = 1;  // SI: plane angle",
   str!"    dimension SolidAngle = Angle^2;",
   str!"",
   str!"    dimension Area = Length^2;",
   str!"    dimension Volume = Length^3;",
   str!"    dimension Wavenumber = 1 / Length;",
   str!"",
   str!"    dimension Frequency = 1 / Time;"]

/-- src/si.rs:24-43 -/
def siText01 : List (List Char) :=
  [str!"    dimension Velocity = Length / Time;",
   str!"    dimension Acceleration = Length / Time^2;",
   str!"    dimension Jerk = Length / Time^3;",
   str!"    dimension FlowRate = Volume / Time;",
   str!"",
   str!"    dimension Momentum = Mass * Velocity;",
   str!"    dimension Force = Mass * Acceleration;",
   str!"    dimension Energy = Momentum^2 / Mass;",
   str!"    dimension Power = Energy / Time;",
   str!"    dimension Pressure = Force / Area;",
   str!"    dimension Action = Energy * Time;",
   str!"    dimension MassDensity = Mass / Length^3;",
   str!"    dimension MomentOfInertia = Mass * Length^2 / Angle^2;",
   str!"    dimension AngularMomentum = MomentOfInertia * Angle / Time;",
   str!"    dimension Torque = Length * Force / Angle;",
   str!"    dimension EnergyDensity = Energy / Volume;",
   str!"    dimension MassFlow = Mass / Time;",
   str!"",
   str!"    dimension ElectricCharge = Current * Time;",
   str!"    dimension Voltage = Energy / ElectricCharge;  // ISQ: electric tension, SI: electric potential difference"]

/-- src/si.rs:44-63 -/
def siText02 : List (List Char) :=
  [str!"    dimension Capacitance = ElectricCharge / Voltage;",
   str!"    dimension ElectricResistance = Voltage / Current;",
   str!"    dimension Resistivity = ElectricResistance * Length;",
   str!"    dimension ElectricConductance = 1 / ElectricResistance;",
   str!"    dimension Conductivity = ElectricConductance / Length;",
   str!"    dimension MagneticFluxDensity = Force / (ElectricCharge * Velocity);",
   str!"    dimension MagneticFlux = MagneticFluxDensity * Area;",
   str!"    dimension MagneticFieldStrength = Current / Length;",
   str!"    dimension Inductance = MagneticFlux / Current;",
   str!"    dimension ElectricChargeDensity = ElectricCharge / Volume;",
   str!"    dimension CurrentDensity = Current / Area;",
   str!"    dimension ElectricDipoleMoment = ElectricCharge * Length;",
   str!"    dimension ElectricQuadrupoleMoment = ElectricCharge * Length^2;",
   str!"    dimension MagneticDipoleMoment = Current * Area;",
   str!"    dimension ElectricFieldStrength = Voltage / Length;",
   str!"    dimension ElectricDisplacementFieldStrength = ElectricCharge / Area;",
   str!"    dimension ElectricPermittivity = Time^4 * Current^2 / Mass / Length^3 * Angle;",
   str!"    dimension MagneticPermeability = Length * Mass / Time^2 / Current^2 / Angle;",
   str!"    dimension Polarizability = ElectricDipoleMoment / ElectricFieldStrength;",
   str!"    dimension ElectricMobility = Velocity / ElectricFieldStrength;"]

/-- src/si.rs:64-83 -/
def siText03 : List (List Char) :=
  [str!"",
   str!"    dimension Entropy = Energy / Temperature;",
   str!"    dimension HeatCapacity = Energy / Temperature;",
   str!"    dimension SpecificHeatCapacity = HeatCapacity / Mass;",
   str!"    dimension ThermalConductivity = Power / (Length * Temperature);",
   str!"    dimension ThermalTransmittance = Power / (Length^2 * Temperature);",
   str!"",
   str!"    dimension MolarMass = Mass / AmountOfSubstance;",
   str!"    dimension MolarVolume = Volume / AmountOfSubstance;",
   str!"    dimension CatalyticActivity = AmountOfSubstance / Time;",
   str!"    dimension Molarity = AmountOfSubstance / Volume;",
   str!"    dimension Molality = AmountOfSubstance / Mass;",
   str!"    dimension ChemicalPotential = Energy / AmountOfSubstance;",
   str!"    dimension MolarHeatCapacity = HeatCapacity / AmountOfSubstance;",
   str!"",
   str!"    dimension LuminousFlux = LuminousIntensity * Angle^2;",
   str!"    dimension Illuminance = LuminousFlux / Area;",
   str!"    dimension Irradiance = Power / Area;",
   str!"",
   str!"    dimension Activity = 1 / Time;"]

/-- src/si.rs:84-103 -/
def siText04 : List (List Char) :=
  [str!"    dimension AbsorbedDose = Energy / Mass;",
   str!"    dimension EquivalentDose = Energy / Mass;  // also: dose equivalent",
   str!"    dimension SpecificActivity = Activity / Mass;",
   str!"",
   str!"    dimension DynamicViscosity = Pressure * Time;",
   str!"",
   str!"    dimension KinematicViscosity = Length^2 / Time;",
   str!"",
   str!"    dimension MomentumDensity = Momentum / Volume;",
   str!"    dimension SpecificEnergy = Energy / Mass;",
   str!"    dimension MassFlux = Mass / (Area * Time);",
   str!"    dimension EnergyFlux = Power / Area;",
   str!"",
   str!"    #[metric_prefixes]",
   str!"    #[symbol(m)]",
   str!"    #[alias(metre, metres, meters)]",
   str!"    #[base(Length)]",
   str!"    unit meter: Length;",
   str!"",
   str!"    #[metric_prefixes]"]

/-- src/si.rs:104-123 -/
def siText05 : List (List Char) :=
  [str!"    #[symbol(s)]",
   str!"    #[alias(seconds)]",
   str!"    #[base(Time)]",
   str!"    unit second: Time;",
   str!"",
   str!"    #[alias(kilograms)]",
   str!"    #[base(Mass)]",
   str!"    #[symbol(kg)]",
   str!"    unit kilogram: Mass;",
   str!"",
   str!"    #[metric_prefixes(skip: kilo)]",
   str!"    #[symbol(g)]",
   str!"    #[alias(grams)]",
   str!"    unit gram: Mass = 1.0e-3 * kilogram;",
   str!"",
   str!"    #[metric_prefixes]",
   str!"    #[symbol(A)]",
   str!"    #[alias(amperes)]",
   str!"    #[base(Current)]",
   str!"    unit ampere: Current;"]

/-- src/si.rs:124-143 -/
def siText06 : List (List Char) :=
  [str!"",
   str!"    #[metric_prefixes]",
   str!"    #[symbol(K)]",
   str!"    #[alias(kelvins)]",
   str!"    #[base(Temperature)]",
   str!"    unit kelvin: Temperature;",
   str!"",
   str!"    #[metric_prefixes]",
   str!"    #[symbol(mol)]",
   str!"    #[alias(moles)]",
   str!"    #[base(AmountOfSubstance)]",
   str!"    unit mole: AmountOfSubstance;",
   str!"",
   str!"    #[metric_prefixes]",
   str!"    #[symbol(cd)]",
   str!"    #[alias(candelas)]",
   str!"    #[base(LuminousIntensity)]",
   str!"    unit candela: LuminousIntensity;",
   str!"",
   str!"    // derived units"]

/-- src/si.rs:144-163 -/
def siText07 : List (List Char) :=
  [str!"",
   str!"    #[metric_prefixes]",
   str!"    #[symbol(rad)]",
   str!"    #[alias(radians)]",
   str!"    unit radian: Angle = meter / meter;",
   str!"",
   str!"    #[metric_prefixes]",
   str!"    #[symbol(sr)]",
   str!"    #[alias(steradians)]",
   str!"    unit steradian: SolidAngle = radian^2;",
   str!"",
   str!"    #[metric_prefixes]",
   str!"    #[symbol(Hz)]",
   str!"    unit hertz: Frequency = 1 / second;",
   str!"",
   str!"    #[metric_prefixes]",
   str!"    #[symbol(N)]",
   str!"    #[alias(newtons)]",
   str!"    unit newton: Force = kilogram meter / second^2;",
   str!""]

/-- src/si.rs:164-183 -/
def siText08 : List (List Char) :=
  [str!"    #[metric_prefixes]",
   str!"    #[symbol(Pa)]",
   str!"    #[alias(pascals)]",
   str!"    unit pascal: Pressure = newton / meter^2;",
   str!"",
   str!"    #[metric_prefixes]",
   str!"    #[symbol(J)]",
   str!"    #[alias(joules)]",
   str!"    unit joule: Energy = newton meter;",
   str!"",
   str!"    #[metric_prefixes]",
   str!"    #[symbol(W)]",
   str!"    #[alias(watts)]",
   str!"    unit watt: Power = joule / second;",
   str!"",
   str!"    #[metric_prefixes]",
   str!"    #[symbol(C)]",
   str!"    #[alias(coulombs)]",
   str!"    unit coulomb: ElectricCharge = ampere second;",
   str!""]

/-- src/si.rs:184-203 -/
def siText09 : List (List Char) :=
  [str!"    #[metric_prefixes]",
   str!"    #[symbol(V)]",
   str!"    #[alias(volts)]",
   str!"    unit volt: Voltage = kilogram meter^2 / (second^3 ampere);",
   str!"",
   str!"    #[metric_prefixes]",
   str!"    #[symbol(F)]",
   str!"    #[alias(farads)]",
   str!"    unit farad: Capacitance = coulomb / volt;",
   str!"",
   str!"    #[metric_prefixes]",
   str!"    #[symbol(Ω)]",
   str!"    #[alias(ohms)]",
   str!"    unit ohm: ElectricResistance = volt / ampere;",
   str!"",
   str!"    #[metric_prefixes]",
   str!"    #[symbol(S)]",
   str!"    unit siemens: ElectricConductance = 1 / ohm;",
   str!"",
   str!"    #[metric_prefixes]"]

/-- src/si.rs:204-223 -/
def siText10 : List (List Char) :=
  [str!"    #[symbol(Wb)]",
   str!"    #[alias(webers)]",
   str!"    unit weber: MagneticFlux = volt second;",
   str!"",
   str!"    #[metric_prefixes]",
   str!"    #[symbol(T)]",
   str!"    #[alias(teslas)]",
   str!"    unit tesla: MagneticFluxDensity = weber / meter^2;",
   str!"",
   str!"    #[metric_prefixes]",
   str!"    #[symbol(H)]",
   str!"    #[alias(henrys)]",
   str!"    unit henry: Inductance = weber / ampere;",
   str!"",
   str!"    #[metric_prefixes]",
   str!"    #[symbol(lm)]",
   str!"    #[alias(lumens)]",
   str!"    unit lumen: LuminousFlux = candela steradian;",
   str!"",
   str!"    #[metric_prefixes]"]

/-- src/si.rs:224-243 -/
def siText11 : List (List Char) :=
  [str!"    #[symbol(lx)]",
   str!"    unit lux: Illuminance = lumen / meter^2;",
   str!"",
   str!"    #[metric_prefixes]",
   str!"    #[symbol(Bq)]",
   str!"    #[alias(becquerels)]",
   str!"    unit becquerel: Activity = 1 / second;",
   str!"",
   str!"    #[metric_prefixes]",
   str!"    #[symbol(Gy)]",
   str!"    #[alias(grays)]",
   str!"    unit gray: AbsorbedDose = joule / kilogram;",
   str!"",
   str!"    #[metric_prefixes]",
   str!"    #[symbol(Sv)]",
   str!"    #[alias(sieverts)]",
   str!"    unit sievert: EquivalentDose = joule / kilogram;",
   str!"",
   str!"    #[metric_prefixes]",
   str!"    #[symbol(kat)]"]

/-- src/si.rs:244-263 -/
def siText12 : List (List Char) :=
  [str!"    #[alias(katals)]",
   str!"    unit katal: CatalyticActivity = mole / second;",
   str!"",
   str!"    // SI accepted units",
   str!"    #[symbol(min)]",
   str!"    #[alias(minutes)]",
   str!"    unit minute: Time = 60 second;",
   str!"",
   str!"    #[symbol(h)]",
   str!"    #[alias(hours)]",
   str!"    unit hour: Time = 60 minute;",
   str!"",
   str!"    #[symbol(day)]",
   str!"    #[alias(days)]",
   str!"    unit day: Time = 24 hour;",
   str!"",
   str!"    #[symbol(au)]",
   str!"    #[alias(astronomicalunits)]",
   str!"    unit astronomicalunit: Length = 149_597_870_700 meter;",
   str!""]

/-- src/si.rs:264-283 -/
def siText13 : List (List Char) :=
  [str!"    constant PI = 3.141592653589793;",
   str!"    //TODO(minor): Support using ° here.",
   str!"    #[symbol(deg)]",
   str!"    #[alias(degrees)]",
   str!"    unit degree: Angle = PI / 180 * radian;",
   str!"",
   str!"    #[alias(arcminutes)]",
   str!"    unit arcminute: Angle = 1 / 60 * degree;",
   str!"",
   str!"    #[alias(arcseconds)]",
   str!"    unit arcsecond: Angle = 1 / 60 * arcminute;",
   str!"",
   str!"    #[alias(ares)]",
   str!"    unit are: Area = 100 meter^2;",
   str!"",
   str!"    #[symbol(ha)]",
   str!"    #[alias(hectares)]",
   str!"    unit hectare: Area = 100 are;",
   str!"",
   str!"    #[metric_prefixes]"]

/-- src/si.rs:284-303 -/
def siText14 : List (List Char) :=
  [str!"    #[symbol(l)]",
   str!"    #[alias(litres)]",
   str!"    unit litre: Volume = decimeter^3;",
   str!"",
   str!"    #[metric_prefixes]",
   str!"    #[alias(tonnes)]",
   str!"    unit tonne: Mass = 10^3 kilogram;",
   str!"",
   str!"    #[symbol(Da)]",
   str!"    #[alias(daltons)]",
   str!"    unit dalton: Mass = 1.660_539_066_60e-27 kilogram;",
   str!"",
   str!"    #[metric_prefixes]",
   str!"    #[symbol(eV)]",
   str!"    #[alias(electronvolts)]",
   str!"    unit electronvolt: Energy = 1.602_176_634e-19 joule;",
   str!"",
   str!"    #[metric_prefixes]",
   str!"    #[alias(joules_per_kilogram)]",
   str!"    unit joule_per_kilogram: SpecificEnergy = joule / kilogram;"]

/-- src/si.rs:304-317 -/
def siText15 : List (List Char) :=
  [str!"",
   str!"    #[metric_prefixes]",
   str!"    #[alias(joules_per_kilogram_kelvin)]",
   str!"    unit joule_per_kilogram_kelvin: SpecificHeatCapacity  = joule_per_kilogram / kelvin;",
   str!"",
   str!"    #[metric_prefixes]",
   str!"    #[alias(meters_per_second)]",
   str!"    unit meter_per_second: Velocity = meter / second;",
   str!"",
   str!"    #[alias(square_metre, square_meters, square_metres)]",
   str!"    unit square_meter: Area = meter^2;",
   str!"",
   str!"    #[alias(cubic_metre, cubic_meters, cubic_metres)]",
   str!"    unit cubic_meter: Volume = meter^3;"]

/-- src/si.rs:4-317, the lines of the argument of `unit_system!`. -/
def siLines : List (List Char) := siText00 ++ siText01 ++ siText02 ++ siText03 ++ siText04 ++ siText05 ++ siText06 ++ siText07 ++ siText08 ++ siText09 ++ siText10 ++ siText11 ++ siText12 ++ siText13 ++ siText14 ++ siText15

end Diman
