import Verif.Examples.TestLang
/-!
# Tests over the SI system, run by the model
Generated by tools/tests.py: examples of the crate documentation (src/lib.rs, with functions inlined) and tests/gas/mod.rs (structs and
iterators over the three equal components written out), with the statements of src/si.rs that they need, in their order
(the metric prefixes are left on meter only, to keep the computation small). A check of the model, not of the properties.
-/
namespace Diman.TestLang

set_option maxRecDepth 4000 in
/-- src/lib.rs and tests/gas/mod.rs -/
example : failing
  [(str!"quantity_type Quantity;"),
   (str!"dimension_type Dimension;"),
   (str!"dimension Length;"),
   (str!"dimension Time;"),
   (str!"dimension Mass;"),
   (str!"dimension Temperature;"),
   (str!"dimension Current;"),
   (str!"dimension AmountOfSubstance;"),
   (str!"dimension LuminousIntensity;"),
   (str!"dimension Dimensionless = 1;"),
   (str!"dimension Area = Length^2;"),
   (str!"dimension Volume = Length^3;"),
   (str!"dimension Velocity = Length / Time;"),
   (str!"dimension Acceleration = Length / Time^2;"),
   (str!"dimension Momentum = Mass * Velocity;"),
   (str!"dimension Force = Mass * Acceleration;"),
   (str!"dimension Energy = Momentum^2 / Mass;"),
   (str!"dimension Pressure = Force / Area;"),
   (str!"dimension MassDensity = Mass / Length^3;"),
   (str!"dimension EnergyDensity = Energy / Volume;"),
   (str!"dimension HeatCapacity = Energy / Temperature;"),
   (str!"dimension SpecificHeatCapacity = HeatCapacity / Mass;"),
   (str!"dimension MomentumDensity = Momentum / Volume;"),
   (str!"dimension SpecificEnergy = Energy / Mass;"),
   (str!"#[metric_prefixes]"),
   (str!"#[symbol(m)]"),
   (str!"#[alias(metre, metres, meters)]"),
   (str!"#[base(Length)]"),
   (str!"unit meter: Length;"),
   (str!"#[symbol(s)]"),
   (str!"#[alias(seconds)]"),
   (str!"#[base(Time)]"),
   (str!"unit second: Time;"),
   (str!"#[alias(kilograms)]"),
   (str!"#[base(Mass)]"),
   (str!"#[symbol(kg)]"),
   (str!"unit kilogram: Mass;"),
   (str!"#[symbol(A)]"),
   (str!"#[alias(amperes)]"),
   (str!"#[base(Current)]"),
   (str!"unit ampere: Current;"),
   (str!"#[symbol(K)]"),
   (str!"#[alias(kelvins)]"),
   (str!"#[base(Temperature)]"),
   (str!"unit kelvin: Temperature;"),
   (str!"#[symbol(mol)]"),
   (str!"#[alias(moles)]"),
   (str!"#[base(AmountOfSubstance)]"),
   (str!"unit mole: AmountOfSubstance;"),
   (str!"#[symbol(cd)]"),
   (str!"#[alias(candelas)]"),
   (str!"#[base(LuminousIntensity)]"),
   (str!"unit candela: LuminousIntensity;"),
   (str!"#[symbol(N)]"),
   (str!"#[alias(newtons)]"),
   (str!"unit newton: Force = kilogram meter / second^2;"),
   (str!"#[symbol(Pa)]"),
   (str!"#[alias(pascals)]"),
   (str!"unit pascal: Pressure = newton / meter^2;"),
   (str!"#[symbol(J)]"),
   (str!"#[alias(joules)]"),
   (str!"unit joule: Energy = newton meter;"),
   (str!"#[symbol(min)]"),
   (str!"#[alias(minutes)]"),
   (str!"unit minute: Time = 60 second;"),
   (str!"#[symbol(h)]"),
   (str!"#[alias(hours)]"),
   (str!"unit hour: Time = 60 minute;"),
   (str!"#[alias(joules_per_kilogram)]"),
   (str!"unit joule_per_kilogram: SpecificEnergy = joule / kilogram;"),
   (str!"#[alias(joules_per_kilogram_kelvin)]"),
   (str!"unit joule_per_kilogram_kelvin: SpecificHeatCapacity = joule_per_kilogram / kelvin;"),
   (str!"#[alias(meters_per_second)]"),
   (str!"unit meter_per_second: Velocity = meter / second;"),
   (str!"#[alias(square_metre, square_meters, square_metres)]"),
   (str!"unit square_meter: Area = meter^2;"),
   (str!"#[alias(cubic_metre, cubic_meters, cubic_metres)]"),
   (str!"unit cubic_meter: Volume = meter^3;")]
   [((str!"v1 and v2"), .f64,
     [.bindAs (str!"v1") (str!"Velocity") .f64 (.bin .div (.bin .mul (.lit (str!"36.0")) (.unit (str!"kilometers"))) (.bin .mul (.lit (str!"1.0")) (.unit (str!"hours")))),
      .bindAs (str!"v2") (str!"Velocity") .f64 (.bin .div (.bin .mul (.lit (str!"10.0")) (.unit (str!"meters"))) (.bin .mul (.lit (str!"1.0")) (.unit (str!"seconds")))),
      .assert (.bin .partialEq (.var (str!"v1")) (.var (str!"v2"))),
      .printed (.call2 .valueIn (.var (str!"v1")) (.bin .div (.unit (str!"kilometers")) (.unit (str!"hour")))) (str!"36")]),
    ((str!"lib.rs:63-65"), .f64,
     [.bind (str!"l") (.bin .add (.bin .mul (.lit (str!"5.0")) (.unit (str!"meters"))) (.bin .mul (.lit (str!"10.0")) (.unit (str!"kilometers"))))]),
    ((str!"lib.rs:69-74"), .f64,
     [.bind (str!"l") (.bin .mul (.lit (str!"5.0")) (.unit (str!"meters"))),
      .bind (str!"t") (.bin .mul (.lit (str!"2.0")) (.unit (str!"seconds"))),
      .bindAs (str!"v") (str!"Velocity") .f64 (.bin .div (.var (str!"l")) (.var (str!"t")))]),
    ((str!"lib.rs:97-108"), .f64,
     [.bind (str!"length") (.bin .mul (.lit (str!"2.0")) (.unit (str!"meters"))),
      .bind (str!"area") (.call1 .squared (.var (str!"length"))),
      .assert (.bin .partialEq (.var (str!"area")) (.bin .mul (.lit (str!"4.0")) (.unit (str!"square_meters")))),
      .assert (.bin .partialEq (.call1 .sqrt (.var (str!"area"))) (.var (str!"length"))),
      .bind (str!"vol") (.call1 .cubed (.var (str!"length"))),
      .assert (.bin .partialEq (.var (str!"vol")) (.bin .mul (.lit (str!"8.0")) (.unit (str!"cubic_meters")))),
      .assert (.bin .partialEq (.call1 .cbrt (.var (str!"vol"))) (.var (str!"length"))),
      .bind (str!"foo") (.call1 (.powi 4) (.var (str!"length")))]),
    ((str!"lib.rs:122-125"), .f64,
     [.bind (str!"l1") (.bin .mul (.lit (str!"2.0")) (.unit (str!"meters"))),
      .bind (str!"l2") (.call2 .unitNew (.unit (str!"meters")) (.lit (str!"2.0"))),
      .assert (.bin .partialEq (.var (str!"l1")) (.var (str!"l2")))]),
    ((str!"lib.rs:130-135"), .f64,
     [.bind (str!"v1") (.call2 .unitNew (.bin .div (.unit (str!"kilometers")) (.unit (str!"hour"))) (.lit (str!"3.6"))),
      .bind (str!"v2") (.bin .div (.bin .mul (.lit (str!"3.6")) (.unit (str!"kilometers"))) (.unit (str!"hour"))),
      .assert (.bin .partialEq (.var (str!"v1")) (.bin .mul (.lit (str!"1.0")) (.unit (str!"meters_per_second")))),
      .assert (.bin .partialEq (.var (str!"v2")) (.bin .mul (.lit (str!"1.0")) (.unit (str!"meters_per_second"))))]),
    ((str!"lib.rs:142-144"), .f64,
     [.bind (str!"length") (.bin .mul (.lit (str!"2.0")) (.unit (str!"kilometers"))),
      .printed (.call2 .valueIn (.var (str!"length")) (.unit (str!"meters"))) (str!"2000")]),
    ((str!"lib.rs:148-151"), .f64,
     [.bind (str!"vel") (.bin .mul (.lit (str!"10.0")) (.unit (str!"meters_per_second"))),
      .printed (.call2 .valueIn (.var (str!"vel")) (.bin .div (.unit (str!"kilometers")) (.unit (str!"hour")))) (str!"36")]),
    ((str!"lib.rs:167-172"), .f64,
     [.bindAs (str!"length") (str!"Length") .f64 (.bin .mul (.lit (str!"5.0")) (.unit (str!"kilometers"))),
      .bind (str!"value") (.call1 .valueUnchecked (.var (str!"length"))),
      .assert (.bin .partialEq (.var (str!"value")) (.lit (str!"5000.0")))]),
    ((str!"lib.rs:205-210"), .f64,
     [.bindAs (str!"length") (str!"Length") .f64 (.bin .mul (.lit (str!"5.0")) (.unit (str!"kilometers"))),
      .bindAs (str!"time") (str!"Time") .f64 (.bin .mul (.lit (str!"1.0")) (.unit (str!"seconds"))),
      .debug (.bin .div (.var (str!"length")) (.var (str!"time"))) (str!"5000 m s^-1")]),
    ((str!"tests/gas/mod.rs"), .f64,
     [.bindAs (str!"pressure") (str!"Pressure") .f64 (.call2 .unitNew (.unit (str!"pascals")) (.lit (str!"100e3"))),
      .bindAs (str!"velocity") (str!"Velocity") .f64 (.call2 .unitNew (.unit (str!"meters_per_second")) (.lit (str!"100.0"))),
      .bindAs (str!"temperature") (str!"Temperature") .f64 (.call2 .unitNew (.unit (str!"kelvin")) (.lit (str!"293.15"))),
      .bindAs (str!"cp") (str!"SpecificHeatCapacity") .f64 (.call2 .unitNew (.unit (str!"joules_per_kilogram_kelvin")) (.lit (str!"1004."))),
      .bindAs (str!"cv") (str!"SpecificHeatCapacity") .f64 (.call2 .unitNew (.unit (str!"joules_per_kilogram_kelvin")) (.lit (str!"717."))),
      .bindAs (str!"r") (str!"SpecificHeatCapacity") .f64 (.bin .sub (.var (str!"cp")) (.var (str!"cv"))),
      .bindAs (str!"gamma") (str!"Dimensionless") .f64 (.bin .div (.var (str!"cp")) (.var (str!"cv"))),
      .bindAs (str!"density") (str!"MassDensity") .f64 (.bin .div (.var (str!"pressure")) (.bin .mul (.var (str!"r")) (.var (str!"temperature")))),
      .bindAs (str!"energy_internal") (str!"SpecificEnergy") .f64 (.bin .mul (.var (str!"cv")) (.var (str!"temperature"))),
      .bindAs (str!"energy_kinetic") (str!"SpecificEnergy") .f64 (.bin .mul (.lit (str!"0.5")) (.sum3 (.call1 (.powi 2) (.var (str!"velocity"))) (.call1 (.powi 2) (.var (str!"velocity"))) (.call1 (.powi 2) (.var (str!"velocity"))))),
      .bindAs (str!"momentum") (str!"MomentumDensity") .f64 (.bin .mul (.var (str!"density")) (.var (str!"velocity"))),
      .bindAs (str!"energy") (str!"EnergyDensity") .f64 (.bin .mul (.var (str!"density")) (.bin .add (.var (str!"energy_internal")) (.var (str!"energy_kinetic")))),
      .bindAs (str!"velocity2") (str!"Velocity") .f64 (.bin .div (.var (str!"momentum")) (.var (str!"density"))),
      .bindAs (str!"energy_kinetic2") (str!"SpecificEnergy") .f64 (.bin .mul (.lit (str!"0.5")) (.sum3 (.call1 (.powi 2) (.var (str!"velocity2"))) (.call1 (.powi 2) (.var (str!"velocity2"))) (.call1 (.powi 2) (.var (str!"velocity2"))))),
      .bindAs (str!"e_internal") (str!"SpecificEnergy") .f64 (.bin .sub (.bin .div (.var (str!"energy")) (.var (str!"density"))) (.var (str!"energy_kinetic2"))),
      .bindAs (str!"pressure2") (str!"Pressure") .f64 (.bin .mul (.bin .mul (.bin .sub (.var (str!"gamma")) (.lit (str!"1.0"))) (.var (str!"density"))) (.var (str!"e_internal"))),
      .bindAs (str!"temperature2") (str!"Temperature") .f64 (.bin .div (.var (str!"e_internal")) (.var (str!"cv"))),
      .assert (.lt (.call1 .abs (.bin .div (.bin .sub (.var (str!"pressure")) (.var (str!"pressure2"))) (.var (str!"pressure")))) (.lit (str!"1e-14"))),
      .assert (.lt (.call1 .abs (.bin .div (.bin .sub (.var (str!"temperature")) (.var (str!"temperature2"))) (.var (str!"temperature")))) (.lit (str!"1e-14")))])] = some [] := by decide +kernel

end Diman.TestLang
