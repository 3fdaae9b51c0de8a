import Verif.Examples.TestLang
/-!
# The repository's own tests, run by the model
Generated by tools/tests.py from /repo/tests. Each test is translated statement by statement, over the verbatim text of its unit system; the
expected result is that no test fails. They check the model, not the properties. Not here: the tests of mpi and rand; those
of the SI system are in SiTests.
-/
namespace Diman.TestLang

/-- tests/example_system/mod.rs:4-40 -/
def exampleSystem : List Str :=
    [(str!"    quantity_type Quantity;"),
     (str!"    dimension_type Dimension;"),
     (str!"    dimension Length;"),
     (str!"    dimension Time;"),
     (str!"    dimension Mass;"),
     (str!"    dimension Temperature;"),
     (str!"    dimension Dimensionless = 1;"),
     (str!"    unit dimensionless = 1;"),
     (str!"    #[base(Length)]"),
     (str!"    #[symbol(m)]"),
     (str!"    #[metric_prefixes]"),
     (str!"    unit meters: Length;"),
     (str!"    #[base(Time)]"),
     (str!"    #[symbol(s)]"),
     (str!"    unit seconds: Time;"),
     (str!"    dimension Velocity = Length / Time;"),
     (str!"    unit meters_per_second = meters / seconds;"),
     (str!"    dimension Energy = Mass * Velocity * Velocity;"),
     (str!"    #[symbol(J)]"),
     (str!"    unit joules = kilograms * meters_per_second^2;"),
     (str!"    #[base(Mass)]"),
     (str!"    #[symbol(kg)]"),
     (str!"    unit kilograms: Mass;"),
     (str!"    unit grams = 1e-3 * kilograms;"),
     (str!"    dimension Area = Length^2;"),
     (str!"    unit square_meters = meters^2;"),
     (str!"    dimension Volume = Length^3;"),
     (str!"    unit cubic_meters = meters^3;"),
     (str!"    dimension Force = Energy / Length;"),
     (str!"    #[base(Temperature)]"),
     (str!"    #[symbol(K)]"),
     (str!"    unit kelvins: Temperature;"),
     (str!"    dimension InverseTemperature = 1 / Temperature;"),
     (str!"    unit newtons = joules / meters;"),
     (str!"    constant SOLAR_MASS = 1.988477e30 * kilograms;"),
     (str!"    constant SOLAR_MASS_GRAMS = 1.988477e33 * grams;"),
     (str!"    constant SOLAR_MASS_AWKWARD = 1.988477e30 * kilograms / (seconds / seconds);")]

/-- tests/unit_aliases/mod.rs:4-14 -/
def aliasSystem : List Str :=
    [(str!"    quantity_type Quantity;"),
     (str!"    dimension_type Dimension;"),
     (str!"    dimension Length;"),
     (str!"    #[base(Length)]"),
     (str!"    #[alias(metres)]"),
     (str!"    #[metric_prefixes]"),
     (str!"    #[symbol(m)]"),
     (str!"    unit meters: Length;"),
     (str!""),
     (str!"    #[prefix(kilo)]"),
     (str!"    unit foo: Length = 0.25 * meters;")]

/-- tests/rational_dimensions/mod.rs:2-18 -/
def rationalSystem : List Str :=
    [(str!"    quantity_type Quantity;"),
     (str!"    dimension_type Dimension;"),
     (str!"    dimension Length;"),
     (str!"    dimension Time;"),
     (str!"    dimension Sorptivity = Length Time^(-1/2);"),
     (str!""),
     (str!"    #[base(Time)]"),
     (str!"    #[prefix(milli)]"),
     (str!"    #[symbol(s)]"),
     (str!"    unit seconds;"),
     (str!""),
     (str!"    #[base(Length)]"),
     (str!"    #[prefix(micro)]"),
     (str!"    #[symbol(m)]"),
     (str!"    unit meters;"),
     (str!""),
     (str!"    unit meters_per_sqrt_second: Sorptivity = meters / seconds^(1/2);")]

/-- tests/debug/mod.rs -/
example : failing exampleSystem
   [((str!"debug::debug"), .f64,
     [.debug (.bin .mul (.lit (str!"50.0")) (.unit (str!"meters"))) (str!"50 m"),
      .debug (.bin .mul (.lit (str!"50.0")) (.unit (str!"square_meters"))) (str!"50 m^2"),
      .bind (str!"x") (.bin .mul (.bin .mul (.lit (str!"50.0")) (.unit (str!"joules"))) (.unit (str!"meters"))),
      .debug (.var (str!"x")) (str!"50 m^3 s^-2 kg"),
      .debug (.bin .mul (.lit (str!"50.0")) (.unit (str!"joules"))) (str!"50 J")])] = some [] := by decide +kernel

/-- tests/dimension_defs/mod.rs -/
example : failing exampleSystem
   [((str!"dimension_defs::one_over_dimension_def"), .f64,
     [.bindAs (str!"_") (str!"InverseTemperature") .f64 (.bin .div (.lit (str!"1.0")) (.bin .mul (.lit (str!"5.0")) (.unit (str!"kelvins"))))]),
    ((str!"dimension_defs::exponent_dimension_def"), .f64,
     [.bindAs (str!"vol") (str!"Volume") .f64 (.bin .mul (.bin .mul (.lit (str!"20.0")) (.unit (str!"square_meters"))) (.unit (str!"meters"))),
      .bindAs (str!"vol2") (str!"Volume") .f64 (.bin .mul (.lit (str!"20.0")) (.unit (str!"cubic_meters"))),
      .close (.var (str!"vol")) (.var (str!"vol2"))])] = some [] := by decide +kernel

/-- tests/float/mod.rs for f32 -/
example : failing exampleSystem
   [((str!"f32::add_same_unit"), .f32,
     [.bind (str!"x") (.bin .mul (.lit (str!"1.0")) (.unit (str!"meters"))),
      .bind (str!"y") (.bin .mul (.lit (str!"10.0")) (.unit (str!"meters"))),
      .close (.bin .add (.var (str!"x")) (.var (str!"y"))) (.bin .mul (.lit (str!"11.0")) (.unit (str!"meters")))]),
    ((str!"f32::add_different_units"), .f32,
     [.bind (str!"x") (.bin .mul (.lit (str!"1.0")) (.unit (str!"meters"))),
      .bind (str!"y") (.bin .mul (.lit (str!"10.0")) (.unit (str!"kilometers"))),
      .close (.bin .add (.var (str!"x")) (.var (str!"y"))) (.bin .mul (.lit (str!"10001.0")) (.unit (str!"meters")))]),
    ((str!"f32::add_quantity_ref"), .f32,
     [.bind (str!"x") (.bin .mul (.lit (str!"1.0")) (.unit (str!"meters"))),
      .bind (str!"y") (.bin .mul (.lit (str!"10.0")) (.unit (str!"meters"))),
      .close (.bin .add (.var (str!"x")) (.ref (.var (str!"y")))) (.bin .mul (.lit (str!"11.0")) (.unit (str!"meters")))]),
    ((str!"f32::add_ref_quantity"), .f32,
     [.bind (str!"x") (.bin .mul (.lit (str!"1.0")) (.unit (str!"meters"))),
      .bind (str!"y") (.bin .mul (.lit (str!"10.0")) (.unit (str!"meters"))),
      .close (.bin .add (.ref (.var (str!"x"))) (.var (str!"y"))) (.bin .mul (.lit (str!"11.0")) (.unit (str!"meters")))]),
    ((str!"f32::add_ref_ref"), .f32,
     [.bind (str!"x") (.bin .mul (.lit (str!"1.0")) (.unit (str!"meters"))),
      .bind (str!"y") (.bin .mul (.lit (str!"10.0")) (.unit (str!"meters"))),
      .close (.bin .add (.ref (.var (str!"x"))) (.ref (.var (str!"y")))) (.bin .mul (.lit (str!"11.0")) (.unit (str!"meters")))]),
    ((str!"f32::add_quantity_type"), .f32,
     [.bind (str!"x") (.bin .mul (.lit (str!"1.0")) (.unit (str!"dimensionless"))),
      .bind (str!"y") (.lit (str!"10.0")),
      .close (.bin .add (.var (str!"x")) (.var (str!"y"))) (.bin .mul (.lit (str!"11.0")) (.unit (str!"dimensionless")))]),
    ((str!"f32::add_type_quantity"), .f32,
     [.bind (str!"x") (.bin .mul (.lit (str!"1.0")) (.unit (str!"dimensionless"))),
      .bind (str!"y") (.lit (str!"10.0")),
      .close (.bin .add (.var (str!"y")) (.var (str!"x"))) (.bin .mul (.lit (str!"11.0")) (.unit (str!"dimensionless")))]),
    ((str!"f32::add_ref_type"), .f32,
     [.bind (str!"x") (.ref (.bin .mul (.lit (str!"1.0")) (.unit (str!"dimensionless")))),
      .bind (str!"y") (.lit (str!"10.0")),
      .close (.bin .add (.var (str!"x")) (.var (str!"y"))) (.bin .mul (.lit (str!"11.0")) (.unit (str!"dimensionless")))]),
    ((str!"f32::add_quantity_reftype"), .f32,
     [.bind (str!"x") (.bin .mul (.lit (str!"1.0")) (.unit (str!"dimensionless"))),
      .bind (str!"y") (.ref (.lit (str!"10.0"))),
      .close (.bin .add (.var (str!"x")) (.var (str!"y"))) (.bin .mul (.lit (str!"11.0")) (.unit (str!"dimensionless")))]),
    ((str!"f32::add_ref_reftype"), .f32,
     [.bind (str!"x") (.ref (.bin .mul (.lit (str!"1.0")) (.unit (str!"dimensionless")))),
      .bind (str!"y") (.ref (.lit (str!"10.0"))),
      .close (.bin .add (.var (str!"x")) (.var (str!"y"))) (.bin .mul (.lit (str!"11.0")) (.unit (str!"dimensionless")))]),
    ((str!"f32::add_assign_quantity_quantity"), .f32,
     [.bind (str!"x") (.bin .mul (.lit (str!"1.0")) (.unit (str!"meters"))),
      .bind (str!"y") (.bin .mul (.lit (str!"10.0")) (.unit (str!"kilometers"))),
      .assign .addAssign (str!"x") (.var (str!"y")),
      .close (.var (str!"x")) (.bin .mul (.lit (str!"10001.0")) (.unit (str!"meters")))]),
    ((str!"f32::add_assign_quantity_ref"), .f32,
     [.bind (str!"x") (.bin .mul (.lit (str!"1.0")) (.unit (str!"meters"))),
      .bind (str!"y") (.bin .mul (.lit (str!"10.0")) (.unit (str!"kilometers"))),
      .assign .addAssign (str!"x") (.ref (.var (str!"y"))),
      .close (.var (str!"x")) (.bin .mul (.lit (str!"10001.0")) (.unit (str!"meters")))]),
    ((str!"f32::add_assign_ref_ref"), .f32,
     [.bind (str!"x") (.mutRef (.bin .mul (.lit (str!"1.0")) (.unit (str!"meters")))),
      .bind (str!"y") (.bin .mul (.lit (str!"10.0")) (.unit (str!"kilometers"))),
      .assign .addAssign (str!"x") (.ref (.var (str!"y"))),
      .close (.deref (.var (str!"x"))) (.bin .mul (.lit (str!"10001.0")) (.unit (str!"meters")))]),
    ((str!"f32::add_assign_quantity_type"), .f32,
     [.bind (str!"x") (.bin .mul (.lit (str!"1.0")) (.unit (str!"dimensionless"))),
      .bind (str!"y") (.lit (str!"10.0")),
      .assign .addAssign (str!"x") (.var (str!"y")),
      .close (.var (str!"x")) (.bin .mul (.lit (str!"11.0")) (.unit (str!"dimensionless")))]),
    ((str!"f32::add_assign_type_quantity"), .f32,
     [.bind (str!"x") (.bin .mul (.lit (str!"1.0")) (.unit (str!"dimensionless"))),
      .bind (str!"y") (.lit (str!"10.0")),
      .assign .addAssign (str!"y") (.var (str!"x")),
      .close (.var (str!"y")) (.lit (str!"11.0"))]),
    ((str!"f32::add_assign_ref_type"), .f32,
     [.bind (str!"x") (.mutRef (.bin .mul (.lit (str!"1.0")) (.unit (str!"dimensionless")))),
      .bind (str!"y") (.lit (str!"10.0")),
      .assign .addAssign (str!"x") (.var (str!"y")),
      .close (.deref (.var (str!"x"))) (.bin .mul (.lit (str!"11.0")) (.unit (str!"dimensionless")))]),
    ((str!"f32::sum_quantity_type"), .f32,
     [.close (.sum4 (.bin .mul (.lit (str!"3.0")) (.unit (str!"meters"))) (.bin .mul (.lit (str!"3.0")) (.unit (str!"kilometers"))) (.bin .mul (.lit (str!"9.0")) (.unit (str!"meters"))) (.bin .mul (.lit (str!"1.0")) (.unit (str!"kilometers")))) (.bin .mul (.lit (str!"4012.0")) (.unit (str!"meters")))]),
    ((str!"f32::sub_different_units"), .f32,
     [.bind (str!"x") (.bin .mul (.lit (str!"1.0")) (.unit (str!"meters"))),
      .bind (str!"y") (.bin .mul (.lit (str!"10.0")) (.unit (str!"kilometers"))),
      .close (.bin .sub (.var (str!"x")) (.var (str!"y"))) (.bin .mul (.lit (str!"-9999.0")) (.unit (str!"meters")))]),
    ((str!"f32::sub_quantity_ref"), .f32,
     [.bind (str!"x") (.bin .mul (.lit (str!"1.0")) (.unit (str!"meters"))),
      .bind (str!"y") (.bin .mul (.lit (str!"10.0")) (.unit (str!"meters"))),
      .close (.bin .sub (.var (str!"x")) (.ref (.var (str!"y")))) (.bin .mul (.lit (str!"-9.0")) (.unit (str!"meters")))]),
    ((str!"f32::sub_ref_ref"), .f32,
     [.bind (str!"x") (.bin .mul (.lit (str!"1.0")) (.unit (str!"meters"))),
      .bind (str!"y") (.bin .mul (.lit (str!"10.0")) (.unit (str!"meters"))),
      .close (.bin .sub (.ref (.var (str!"x"))) (.ref (.var (str!"y")))) (.bin .mul (.lit (str!"-9.0")) (.unit (str!"meters")))]),
    ((str!"f32::sub_quantity_type"), .f32,
     [.bind (str!"x") (.bin .mul (.lit (str!"1.0")) (.unit (str!"dimensionless"))),
      .bind (str!"y") (.lit (str!"10.0")),
      .close (.bin .sub (.var (str!"x")) (.var (str!"y"))) (.bin .mul (.lit (str!"-9.0")) (.unit (str!"dimensionless")))]),
    ((str!"f32::sub_type_quantity"), .f32,
     [.bind (str!"x") (.bin .mul (.lit (str!"1.0")) (.unit (str!"dimensionless"))),
      .bind (str!"y") (.lit (str!"10.0")),
      .close (.bin .sub (.var (str!"y")) (.var (str!"x"))) (.bin .mul (.lit (str!"9.0")) (.unit (str!"dimensionless")))]),
    ((str!"f32::sub_ref_type"), .f32,
     [.bind (str!"x") (.ref (.bin .mul (.lit (str!"1.0")) (.unit (str!"dimensionless")))),
      .bind (str!"y") (.lit (str!"10.0")),
      .close (.bin .sub (.var (str!"x")) (.var (str!"y"))) (.bin .mul (.lit (str!"-9.0")) (.unit (str!"dimensionless")))]),
    ((str!"f32::sub_quantity_reftype"), .f32,
     [.bind (str!"x") (.bin .mul (.lit (str!"1.0")) (.unit (str!"dimensionless"))),
      .bind (str!"y") (.ref (.lit (str!"10.0"))),
      .close (.bin .sub (.var (str!"x")) (.var (str!"y"))) (.bin .mul (.lit (str!"-9.0")) (.unit (str!"dimensionless")))]),
    ((str!"f32::sub_ref_reftype"), .f32,
     [.bind (str!"x") (.ref (.bin .mul (.lit (str!"1.0")) (.unit (str!"dimensionless")))),
      .bind (str!"y") (.ref (.lit (str!"10.0"))),
      .close (.bin .sub (.var (str!"x")) (.var (str!"y"))) (.bin .mul (.lit (str!"-9.0")) (.unit (str!"dimensionless")))]),
    ((str!"f32::sub_assign_quantity_quantity"), .f32,
     [.bind (str!"x") (.bin .mul (.lit (str!"1.0")) (.unit (str!"meters"))),
      .bind (str!"y") (.bin .mul (.lit (str!"10.0")) (.unit (str!"kilometers"))),
      .assign .subAssign (str!"x") (.var (str!"y")),
      .close (.var (str!"x")) (.bin .mul (.lit (str!"-9999.0")) (.unit (str!"meters")))]),
    ((str!"f32::sub_assign_quantity_ref"), .f32,
     [.bind (str!"x") (.bin .mul (.lit (str!"1.0")) (.unit (str!"meters"))),
      .bind (str!"y") (.bin .mul (.lit (str!"10.0")) (.unit (str!"kilometers"))),
      .assign .subAssign (str!"x") (.ref (.var (str!"y"))),
      .close (.var (str!"x")) (.bin .mul (.lit (str!"-9999.0")) (.unit (str!"meters")))]),
    ((str!"f32::sub_assign_ref_quantity"), .f32,
     [.bind (str!"x") (.mutRef (.bin .mul (.lit (str!"1.0")) (.unit (str!"meters")))),
      .bind (str!"y") (.bin .mul (.lit (str!"10.0")) (.unit (str!"kilometers"))),
      .assign .subAssign (str!"x") (.var (str!"y")),
      .close (.deref (.var (str!"x"))) (.bin .mul (.lit (str!"-9999.0")) (.unit (str!"meters")))]),
    ((str!"f32::sub_assign_ref_ref"), .f32,
     [.bind (str!"x") (.mutRef (.bin .mul (.lit (str!"1.0")) (.unit (str!"meters")))),
      .bind (str!"y") (.bin .mul (.lit (str!"10.0")) (.unit (str!"kilometers"))),
      .assign .subAssign (str!"x") (.ref (.var (str!"y"))),
      .close (.deref (.var (str!"x"))) (.bin .mul (.lit (str!"-9999.0")) (.unit (str!"meters")))]),
    ((str!"f32::sub_assign_quantity_type"), .f32,
     [.bind (str!"x") (.bin .mul (.lit (str!"1.0")) (.unit (str!"dimensionless"))),
      .bind (str!"y") (.lit (str!"10.0")),
      .assign .subAssign (str!"x") (.var (str!"y")),
      .close (.var (str!"x")) (.bin .mul (.lit (str!"-9.0")) (.unit (str!"dimensionless")))]),
    ((str!"f32::sub_assign_type_quantity"), .f32,
     [.bind (str!"x") (.bin .mul (.lit (str!"1.0")) (.unit (str!"dimensionless"))),
      .bind (str!"y") (.lit (str!"10.0")),
      .assign .subAssign (str!"y") (.var (str!"x")),
      .close (.var (str!"y")) (.lit (str!"9.0"))]),
    ((str!"f32::sub_assign_ref_type"), .f32,
     [.bind (str!"x") (.mutRef (.bin .mul (.lit (str!"1.0")) (.unit (str!"dimensionless")))),
      .bind (str!"y") (.lit (str!"10.0")),
      .assign .subAssign (str!"x") (.var (str!"y")),
      .close (.deref (.var (str!"x"))) (.bin .mul (.lit (str!"-9.0")) (.unit (str!"dimensionless")))]),
    ((str!"f32::neg_quantity"), .f32,
     [.bind (str!"x") (.bin .mul (.lit (str!"5.0")) (.unit (str!"meters"))),
      .bind (str!"y") (.bin .mul (.lit (str!"2.0")) (.unit (str!"meters"))),
      .close (.bin .add (.var (str!"x")) (.call1 .neg (.var (str!"y")))) (.bin .mul (.lit (str!"3.0")) (.unit (str!"meters"))),
      .close (.bin .sub (.var (str!"x")) (.var (str!"y"))) (.bin .mul (.lit (str!"3.0")) (.unit (str!"meters")))]),
    ((str!"f32::mul_quantity_quantity"), .f32,
     [.bind (str!"x") (.bin .mul (.lit (str!"2.0")) (.unit (str!"newtons"))),
      .bind (str!"y") (.bin .mul (.lit (str!"3.0")) (.unit (str!"meters"))),
      .close (.bin .mul (.var (str!"x")) (.var (str!"y"))) (.bin .mul (.lit (str!"6.0")) (.unit (str!"joules")))]),
    ((str!"f32::mul_quantity_ref"), .f32,
     [.bind (str!"x") (.bin .mul (.lit (str!"2.0")) (.unit (str!"newtons"))),
      .bind (str!"y") (.bin .mul (.lit (str!"3.0")) (.unit (str!"meters"))),
      .close (.bin .mul (.var (str!"x")) (.ref (.var (str!"y")))) (.bin .mul (.lit (str!"6.0")) (.unit (str!"joules")))]),
    ((str!"f32::mul_ref_quantity"), .f32,
     [.bind (str!"x") (.bin .mul (.lit (str!"2.0")) (.unit (str!"newtons"))),
      .bind (str!"y") (.bin .mul (.lit (str!"3.0")) (.unit (str!"meters"))),
      .close (.bin .mul (.ref (.var (str!"x"))) (.var (str!"y"))) (.bin .mul (.lit (str!"6.0")) (.unit (str!"joules")))]),
    ((str!"f32::mul_ref_ref"), .f32,
     [.bind (str!"x") (.bin .mul (.lit (str!"2.0")) (.unit (str!"newtons"))),
      .bind (str!"y") (.bin .mul (.lit (str!"3.0")) (.unit (str!"meters"))),
      .close (.bin .mul (.ref (.var (str!"x"))) (.ref (.var (str!"y")))) (.bin .mul (.lit (str!"6.0")) (.unit (str!"joules")))]),
    ((str!"f32::mul_quantity_type"), .f32,
     [.bind (str!"x") (.bin .mul (.lit (str!"2.0")) (.unit (str!"newtons"))),
      .bind (str!"y") (.lit (str!"3.0")),
      .close (.bin .mul (.var (str!"x")) (.var (str!"y"))) (.bin .mul (.lit (str!"6.0")) (.unit (str!"newtons")))]),
    ((str!"f32::mul_type_quantity"), .f32,
     [.bind (str!"x") (.lit (str!"3.0")),
      .bind (str!"y") (.bin .mul (.lit (str!"2.0")) (.unit (str!"newtons"))),
      .close (.bin .mul (.var (str!"x")) (.var (str!"y"))) (.bin .mul (.lit (str!"6.0")) (.unit (str!"newtons")))]),
    ((str!"f32::mul_quantity_typeref"), .f32,
     [.bind (str!"x") (.bin .mul (.lit (str!"2.0")) (.unit (str!"newtons"))),
      .bind (str!"y") (.ref (.lit (str!"3.0"))),
      .close (.bin .mul (.var (str!"x")) (.var (str!"y"))) (.bin .mul (.lit (str!"6.0")) (.unit (str!"newtons")))])] = some [] := by decide +kernel

/-- tests/float/mod.rs for f32 -/
example : failing exampleSystem
   [((str!"f32::mul_ref_type"), .f32,
     [.bind (str!"x") (.ref (.bin .mul (.lit (str!"2.0")) (.unit (str!"newtons")))),
      .bind (str!"y") (.lit (str!"3.0")),
      .close (.bin .mul (.var (str!"x")) (.var (str!"y"))) (.bin .mul (.lit (str!"6.0")) (.unit (str!"newtons")))]),
    ((str!"f32::mul_ref_typeref"), .f32,
     [.bind (str!"x") (.ref (.bin .mul (.lit (str!"2.0")) (.unit (str!"newtons")))),
      .bind (str!"y") (.ref (.lit (str!"3.0"))),
      .close (.bin .mul (.var (str!"x")) (.var (str!"y"))) (.bin .mul (.lit (str!"6.0")) (.unit (str!"newtons")))]),
    ((str!"f32::mul_assign_quantity_quantity"), .f32,
     [.bind (str!"x") (.bin .mul (.lit (str!"2.0")) (.unit (str!"newtons"))),
      .bind (str!"y") (.bin .mul (.lit (str!"3.0")) (.unit (str!"dimensionless"))),
      .assign .mulAssign (str!"x") (.var (str!"y")),
      .close (.var (str!"x")) (.bin .mul (.lit (str!"6.0")) (.unit (str!"newtons")))]),
    ((str!"f32::mul_assign_quantity_ref"), .f32,
     [.bind (str!"x") (.bin .mul (.lit (str!"2.0")) (.unit (str!"newtons"))),
      .bind (str!"y") (.bin .mul (.lit (str!"3.0")) (.unit (str!"dimensionless"))),
      .assign .mulAssign (str!"x") (.ref (.var (str!"y"))),
      .close (.var (str!"x")) (.bin .mul (.lit (str!"6.0")) (.unit (str!"newtons")))]),
    ((str!"f32::mul_assign_ref_quantity"), .f32,
     [.bind (str!"x") (.mutRef (.bin .mul (.lit (str!"2.0")) (.unit (str!"newtons")))),
      .bind (str!"y") (.bin .mul (.lit (str!"3.0")) (.unit (str!"dimensionless"))),
      .assign .mulAssign (str!"x") (.var (str!"y")),
      .close (.deref (.var (str!"x"))) (.bin .mul (.lit (str!"6.0")) (.unit (str!"newtons")))]),
    ((str!"f32::mul_assign_ref_ref"), .f32,
     [.bind (str!"x") (.mutRef (.bin .mul (.lit (str!"2.0")) (.unit (str!"newtons")))),
      .bind (str!"y") (.bin .mul (.lit (str!"3.0")) (.unit (str!"dimensionless"))),
      .assign .mulAssign (str!"x") (.ref (.var (str!"y"))),
      .close (.deref (.var (str!"x"))) (.bin .mul (.lit (str!"6.0")) (.unit (str!"newtons")))]),
    ((str!"f32::mul_assign_quantity_type"), .f32,
     [.bind (str!"x") (.bin .mul (.lit (str!"2.0")) (.unit (str!"newtons"))),
      .bind (str!"y") (.lit (str!"3.0")),
      .assign .mulAssign (str!"x") (.var (str!"y")),
      .close (.var (str!"x")) (.bin .mul (.lit (str!"6.0")) (.unit (str!"newtons")))]),
    ((str!"f32::mul_assign_type_quantity"), .f32,
     [.bind (str!"x") (.lit (str!"3.0")),
      .bind (str!"y") (.bin .mul (.lit (str!"2.0")) (.unit (str!"dimensionless"))),
      .assign .mulAssign (str!"x") (.var (str!"y")),
      .close (.var (str!"x")) (.lit (str!"6.0"))]),
    ((str!"f32::mul_assign_type_ref"), .f32,
     [.bind (str!"x") (.lit (str!"3.0")),
      .bind (str!"y") (.ref (.bin .mul (.lit (str!"2.0")) (.unit (str!"dimensionless")))),
      .assign .mulAssign (str!"x") (.var (str!"y")),
      .close (.var (str!"x")) (.lit (str!"6.0"))]),
    ((str!"f32::div_quantity_quantity"), .f32,
     [.bind (str!"x") (.bin .mul (.lit (str!"6.0")) (.unit (str!"meters"))),
      .bind (str!"y") (.bin .mul (.lit (str!"2.0")) (.unit (str!"seconds"))),
      .close (.bin .div (.var (str!"x")) (.var (str!"y"))) (.bin .mul (.lit (str!"3.0")) (.unit (str!"meters_per_second")))]),
    ((str!"f32::div_quantity_ref"), .f32,
     [.bind (str!"x") (.bin .mul (.lit (str!"6.0")) (.unit (str!"meters"))),
      .bind (str!"y") (.bin .mul (.lit (str!"2.0")) (.unit (str!"seconds"))),
      .close (.bin .div (.var (str!"x")) (.ref (.var (str!"y")))) (.bin .mul (.lit (str!"3.0")) (.unit (str!"meters_per_second")))]),
    ((str!"f32::div_ref_quantity"), .f32,
     [.bind (str!"x") (.bin .mul (.lit (str!"6.0")) (.unit (str!"meters"))),
      .bind (str!"y") (.bin .mul (.lit (str!"2.0")) (.unit (str!"seconds"))),
      .close (.bin .div (.ref (.var (str!"x"))) (.var (str!"y"))) (.bin .mul (.lit (str!"3.0")) (.unit (str!"meters_per_second")))]),
    ((str!"f32::div_ref_ref"), .f32,
     [.bind (str!"x") (.bin .mul (.lit (str!"6.0")) (.unit (str!"meters"))),
      .bind (str!"y") (.bin .mul (.lit (str!"2.0")) (.unit (str!"seconds"))),
      .close (.bin .div (.ref (.var (str!"x"))) (.ref (.var (str!"y")))) (.bin .mul (.lit (str!"3.0")) (.unit (str!"meters_per_second")))]),
    ((str!"f32::div_assign_quantity_quantity"), .f32,
     [.bind (str!"x") (.bin .mul (.lit (str!"2.0")) (.unit (str!"newtons"))),
      .bind (str!"y") (.bin .mul (.lit (str!"4.0")) (.unit (str!"dimensionless"))),
      .assign .divAssign (str!"x") (.var (str!"y")),
      .close (.var (str!"x")) (.bin .mul (.lit (str!"0.5")) (.unit (str!"newtons")))]),
    ((str!"f32::div_assign_quantity_ref"), .f32,
     [.bind (str!"x") (.bin .mul (.lit (str!"2.0")) (.unit (str!"newtons"))),
      .bind (str!"y") (.bin .mul (.lit (str!"4.0")) (.unit (str!"dimensionless"))),
      .assign .divAssign (str!"x") (.ref (.var (str!"y"))),
      .close (.var (str!"x")) (.bin .mul (.lit (str!"0.5")) (.unit (str!"newtons")))]),
    ((str!"f32::div_assign_ref_quantity"), .f32,
     [.bind (str!"x") (.mutRef (.bin .mul (.lit (str!"2.0")) (.unit (str!"newtons")))),
      .bind (str!"y") (.bin .mul (.lit (str!"4.0")) (.unit (str!"dimensionless"))),
      .assign .divAssign (str!"x") (.var (str!"y")),
      .close (.deref (.var (str!"x"))) (.bin .mul (.lit (str!"0.5")) (.unit (str!"newtons")))]),
    ((str!"f32::div_assign_ref_ref"), .f32,
     [.bind (str!"x") (.mutRef (.bin .mul (.lit (str!"2.0")) (.unit (str!"newtons")))),
      .bind (str!"y") (.bin .mul (.lit (str!"4.0")) (.unit (str!"dimensionless"))),
      .assign .divAssign (str!"x") (.ref (.var (str!"y"))),
      .close (.deref (.var (str!"x"))) (.bin .mul (.lit (str!"0.5")) (.unit (str!"newtons")))]),
    ((str!"f32::div_quantity_type"), .f32,
     [.bind (str!"x") (.bin .mul (.lit (str!"6.0")) (.unit (str!"meters"))),
      .bind (str!"y") (.lit (str!"2.0")),
      .close (.bin .div (.var (str!"x")) (.var (str!"y"))) (.bin .mul (.lit (str!"3.0")) (.unit (str!"meters")))]),
    ((str!"f32::div_quantity_reftype"), .f32,
     [.bind (str!"x") (.bin .mul (.lit (str!"6.0")) (.unit (str!"meters"))),
      .bind (str!"y") (.ref (.lit (str!"2.0"))),
      .close (.bin .div (.var (str!"x")) (.var (str!"y"))) (.bin .mul (.lit (str!"3.0")) (.unit (str!"meters")))]),
    ((str!"f32::div_ref_type"), .f32,
     [.bind (str!"x") (.ref (.bin .mul (.lit (str!"6.0")) (.unit (str!"meters")))),
      .bind (str!"y") (.lit (str!"2.0")),
      .close (.bin .div (.var (str!"x")) (.var (str!"y"))) (.bin .mul (.lit (str!"3.0")) (.unit (str!"meters")))]),
    ((str!"f32::div_ref_reftype"), .f32,
     [.bind (str!"x") (.ref (.bin .mul (.lit (str!"6.0")) (.unit (str!"meters")))),
      .bind (str!"y") (.ref (.lit (str!"2.0"))),
      .close (.bin .div (.var (str!"x")) (.var (str!"y"))) (.bin .mul (.lit (str!"3.0")) (.unit (str!"meters")))]),
    ((str!"f32::div_assign_quantity_type"), .f32,
     [.bind (str!"x") (.bin .mul (.lit (str!"6.0")) (.unit (str!"meters"))),
      .bind (str!"y") (.lit (str!"2.0")),
      .assign .divAssign (str!"x") (.var (str!"y")),
      .close (.var (str!"x")) (.bin .mul (.lit (str!"3.0")) (.unit (str!"meters")))]),
    ((str!"f32::div_type_quantity"), .f32,
     [.bind (str!"x") (.lit (str!"2.0")),
      .bind (str!"y") (.bin .mul (.lit (str!"6.0")) (.unit (str!"meters_per_second"))),
      .close (.bin .div (.var (str!"x")) (.var (str!"y"))) (.bin .div (.bin .mul (.lit (str!"2.0")) (.unit (str!"seconds"))) (.bin .mul (.lit (str!"6.0")) (.unit (str!"meters"))))]),
    ((str!"f32::div_assign_type_quantity"), .f32,
     [.bind (str!"x") (.lit (str!"6.0")),
      .bind (str!"y") (.bin .mul (.lit (str!"2.0")) (.unit (str!"dimensionless"))),
      .assign .divAssign (str!"x") (.var (str!"y")),
      .close (.var (str!"x")) (.lit (str!"3.0"))]),
    ((str!"f32::sqrt_float_quantity"), .f32,
     [.bind (str!"x") (.call1 (.powi 2) (.bin .mul (.lit (str!"6.0")) (.unit (str!"meters")))),
      .bind (str!"y") (.call1 (.powi 2) (.bin .mul (.lit (str!"2.0")) (.unit (str!"seconds")))),
      .close (.call1 .sqrt (.bin .div (.var (str!"x")) (.var (str!"y")))) (.bin .mul (.lit (str!"3.0")) (.unit (str!"meters_per_second")))]),
    ((str!"f32::cbrt_float_quantity"), .f32,
     [.bind (str!"x") (.call1 (.powi 3) (.bin .mul (.lit (str!"4.0")) (.unit (str!"meters")))),
      .bind (str!"y") (.call1 (.powi 3) (.bin .mul (.lit (str!"1.0")) (.unit (str!"seconds")))),
      .close (.call1 .cbrt (.bin .div (.var (str!"x")) (.var (str!"y")))) (.bin .mul (.lit (str!"4.0")) (.unit (str!"meters_per_second")))]),
    ((str!"f32::constant"), .f32,
     [.close (.bin .mul (.lit (str!"1.0")) (.unit (str!"SOLAR_MASS"))) (.bin .mul (.lit (str!"1.988477e30")) (.unit (str!"kilograms"))),
      .close (.bin .mul (.lit (str!"1.0")) (.unit (str!"SOLAR_MASS_GRAMS"))) (.bin .mul (.lit (str!"1.988477e30")) (.unit (str!"kilograms"))),
      .close (.bin .mul (.lit (str!"1.0")) (.unit (str!"SOLAR_MASS_AWKWARD"))) (.bin .mul (.lit (str!"1.988477e30")) (.unit (str!"kilograms")))]),
    ((str!"f32::log2"), .f32,
     [.bind (str!"x") (.bin .mul (.lit (str!"128.0")) (.unit (str!"dimensionless"))),
      .close (.call1 (.dimensionless .log2) (.var (str!"x"))) (.bin .mul (.lit (str!"7.0")) (.unit (str!"dimensionless")))]),
    ((str!"f32::deref_dimensionless"), .f32,
     [.bind (str!"x") (.bin .mul (.lit (str!"128.3")) (.unit (str!"dimensionless"))),
      .assert (.bin .partialEq (.float (roundFloat .f32) (.call1 .deref (.var (str!"x")))) (.lit (str!"128.0")))]),
    ((str!"f32::partial_eq_quantity_quantity"), .f32,
     [.bind (str!"x") (.bin .mul (.lit (str!"50.0")) (.unit (str!"meters"))),
      .bind (str!"y") (.bin .mul (.lit (str!"50.0")) (.unit (str!"meters"))),
      .assert (.bin .partialEq (.var (str!"x")) (.var (str!"y")))]),
    ((str!"f32::partial_eq_quantity_ref"), .f32,
     [.bind (str!"x") (.bin .mul (.lit (str!"50.0")) (.unit (str!"meters"))),
      .bind (str!"y") (.bin .mul (.lit (str!"50.0")) (.unit (str!"meters"))),
      .assert (.bin .partialEq (.var (str!"x")) (.ref (.var (str!"y"))))]),
    ((str!"f32::partial_eq_ref_quantity"), .f32,
     [.bind (str!"x") (.bin .mul (.lit (str!"50.0")) (.unit (str!"meters"))),
      .bind (str!"y") (.bin .mul (.lit (str!"50.0")) (.unit (str!"meters"))),
      .assert (.bin .partialEq (.ref (.var (str!"x"))) (.var (str!"y")))]),
    ((str!"f32::partial_eq_ref_ref"), .f32,
     [.bind (str!"x") (.bin .mul (.lit (str!"50.0")) (.unit (str!"meters"))),
      .bind (str!"y") (.bin .mul (.lit (str!"50.0")) (.unit (str!"meters"))),
      .assert (.bin .partialEq (.ref (.var (str!"x"))) (.ref (.var (str!"y"))))]),
    ((str!"f32::partial_eq_quantity_type"), .f32,
     [.bind (str!"x") (.bin .mul (.lit (str!"50.0")) (.unit (str!"dimensionless"))),
      .bind (str!"y") (.lit (str!"50.0")),
      .assert (.bin .partialEq (.var (str!"x")) (.var (str!"y")))]),
    ((str!"f32::partial_eq_type_quantity"), .f32,
     [.bind (str!"x") (.lit (str!"50.0")),
      .bind (str!"y") (.bin .mul (.lit (str!"50.0")) (.unit (str!"dimensionless"))),
      .assert (.bin .partialEq (.var (str!"x")) (.var (str!"y")))]),
    ((str!"f32::partial_ord_quantity_quantity"), .f32,
     [.bind (str!"x") (.bin .mul (.lit (str!"50.0")) (.unit (str!"meters"))),
      .bind (str!"y") (.bin .mul (.lit (str!"49.0")) (.unit (str!"meters"))),
      .assert (.gt (.var (str!"x")) (.var (str!"y")))]),
    ((str!"f32::partial_ord_quantity_type"), .f32,
     [.bind (str!"x") (.bin .mul (.lit (str!"50.0")) (.unit (str!"dimensionless"))),
      .bind (str!"y") (.lit (str!"49.0")),
      .assert (.ge (.var (str!"x")) (.var (str!"y")))]),
    ((str!"f32::partial_ord_type_quantity"), .f32,
     [.bind (str!"x") (.lit (str!"50.0")),
      .bind (str!"y") (.bin .mul (.lit (str!"49.0")) (.unit (str!"dimensionless"))),
      .assert (.gt (.var (str!"x")) (.var (str!"y")))]),
    ((str!"f32::clamp_quantity_quantity"), .f32,
     [.bind (str!"x") (.bin .mul (.lit (str!"10.0")) (.unit (str!"meters"))),
      .bind (str!"y") (.bin .mul (.lit (str!"20.0")) (.unit (str!"kilometers"))),
      .assert (.bin .partialEq (.call3 .clamp (.bin .mul (.lit (str!"1.0")) (.unit (str!"meters"))) (.var (str!"x")) (.var (str!"y"))) (.var (str!"x"))),
      .assert (.bin .partialEq (.call3 .clamp (.bin .mul (.lit (str!"50.0")) (.unit (str!"meters"))) (.var (str!"x")) (.var (str!"y"))) (.bin .mul (.lit (str!"50.0")) (.unit (str!"meters")))),
      .assert (.bin .partialEq (.call3 .clamp (.bin .mul (.lit (str!"50000.0")) (.unit (str!"meters"))) (.var (str!"x")) (.var (str!"y"))) (.var (str!"y")))]),
    ((str!"f32::clamp_quantity_type"), .f32,
     [.bind (str!"x") (.lit (str!"10.0")),
      .bind (str!"y") (.lit (str!"20.0")),
      .assert (.bin .partialEq (.call3 .clamp (.bin .mul (.lit (str!"5.0")) (.unit (str!"dimensionless"))) (.var (str!"x")) (.var (str!"y"))) (.var (str!"x"))),
      .assert (.bin .partialEq (.call3 .clamp (.bin .mul (.lit (str!"15.0")) (.unit (str!"dimensionless"))) (.var (str!"x")) (.var (str!"y"))) (.bin .mul (.lit (str!"15.0")) (.unit (str!"dimensionless")))),
      .assert (.bin .partialEq (.call3 .clamp (.bin .mul (.lit (str!"50.0")) (.unit (str!"dimensionless"))) (.var (str!"x")) (.var (str!"y"))) (.var (str!"y")))])] = some [] := by decide +kernel

/-- tests/float/mod.rs for f32 -/
example : failing exampleSystem
   [((str!"f32::max_quantity_quantity"), .f32,
     [.bind (str!"x") (.bin .mul (.lit (str!"10.0")) (.unit (str!"meters"))),
      .assert (.bin .partialEq (.call2 .max (.bin .mul (.lit (str!"5.0")) (.unit (str!"meters"))) (.var (str!"x"))) (.var (str!"x"))),
      .assert (.bin .partialEq (.call2 .max (.bin .mul (.lit (str!"15.0")) (.unit (str!"meters"))) (.var (str!"x"))) (.bin .mul (.lit (str!"15.0")) (.unit (str!"meters"))))]),
    ((str!"f32::max_quantity_type"), .f32,
     [.bind (str!"x") (.lit (str!"10.0")),
      .assert (.bin .partialEq (.call2 .max (.bin .mul (.lit (str!"5.0")) (.unit (str!"dimensionless"))) (.var (str!"x"))) (.var (str!"x"))),
      .assert (.bin .partialEq (.call2 .max (.bin .mul (.lit (str!"15.0")) (.unit (str!"dimensionless"))) (.var (str!"x"))) (.bin .mul (.lit (str!"15.0")) (.unit (str!"dimensionless"))))]),
    ((str!"f32::min_quantity_quantity"), .f32,
     [.bind (str!"x") (.bin .mul (.lit (str!"10.0")) (.unit (str!"meters"))),
      .assert (.bin .partialEq (.call2 .min (.bin .mul (.lit (str!"5.0")) (.unit (str!"meters"))) (.var (str!"x"))) (.bin .mul (.lit (str!"5.0")) (.unit (str!"meters")))),
      .assert (.bin .partialEq (.call2 .min (.bin .mul (.lit (str!"15.0")) (.unit (str!"meters"))) (.var (str!"x"))) (.var (str!"x")))]),
    ((str!"f32::min_quantity_type"), .f32,
     [.bind (str!"x") (.lit (str!"10.0")),
      .assert (.bin .partialEq (.call2 .min (.bin .mul (.lit (str!"5.0")) (.unit (str!"dimensionless"))) (.var (str!"x"))) (.bin .mul (.lit (str!"5.0")) (.unit (str!"dimensionless")))),
      .assert (.bin .partialEq (.call2 .min (.bin .mul (.lit (str!"15.0")) (.unit (str!"dimensionless"))) (.var (str!"x"))) (.var (str!"x")))])] = some [] := by decide +kernel

/-- tests/float/mod.rs for f64 -/
example : failing exampleSystem
   [((str!"f64::add_same_unit"), .f64,
     [.bind (str!"x") (.bin .mul (.lit (str!"1.0")) (.unit (str!"meters"))),
      .bind (str!"y") (.bin .mul (.lit (str!"10.0")) (.unit (str!"meters"))),
      .close (.bin .add (.var (str!"x")) (.var (str!"y"))) (.bin .mul (.lit (str!"11.0")) (.unit (str!"meters")))]),
    ((str!"f64::add_different_units"), .f64,
     [.bind (str!"x") (.bin .mul (.lit (str!"1.0")) (.unit (str!"meters"))),
      .bind (str!"y") (.bin .mul (.lit (str!"10.0")) (.unit (str!"kilometers"))),
      .close (.bin .add (.var (str!"x")) (.var (str!"y"))) (.bin .mul (.lit (str!"10001.0")) (.unit (str!"meters")))]),
    ((str!"f64::add_quantity_ref"), .f64,
     [.bind (str!"x") (.bin .mul (.lit (str!"1.0")) (.unit (str!"meters"))),
      .bind (str!"y") (.bin .mul (.lit (str!"10.0")) (.unit (str!"meters"))),
      .close (.bin .add (.var (str!"x")) (.ref (.var (str!"y")))) (.bin .mul (.lit (str!"11.0")) (.unit (str!"meters")))]),
    ((str!"f64::add_ref_quantity"), .f64,
     [.bind (str!"x") (.bin .mul (.lit (str!"1.0")) (.unit (str!"meters"))),
      .bind (str!"y") (.bin .mul (.lit (str!"10.0")) (.unit (str!"meters"))),
      .close (.bin .add (.ref (.var (str!"x"))) (.var (str!"y"))) (.bin .mul (.lit (str!"11.0")) (.unit (str!"meters")))]),
    ((str!"f64::add_ref_ref"), .f64,
     [.bind (str!"x") (.bin .mul (.lit (str!"1.0")) (.unit (str!"meters"))),
      .bind (str!"y") (.bin .mul (.lit (str!"10.0")) (.unit (str!"meters"))),
      .close (.bin .add (.ref (.var (str!"x"))) (.ref (.var (str!"y")))) (.bin .mul (.lit (str!"11.0")) (.unit (str!"meters")))]),
    ((str!"f64::add_quantity_type"), .f64,
     [.bind (str!"x") (.bin .mul (.lit (str!"1.0")) (.unit (str!"dimensionless"))),
      .bind (str!"y") (.lit (str!"10.0")),
      .close (.bin .add (.var (str!"x")) (.var (str!"y"))) (.bin .mul (.lit (str!"11.0")) (.unit (str!"dimensionless")))]),
    ((str!"f64::add_type_quantity"), .f64,
     [.bind (str!"x") (.bin .mul (.lit (str!"1.0")) (.unit (str!"dimensionless"))),
      .bind (str!"y") (.lit (str!"10.0")),
      .close (.bin .add (.var (str!"y")) (.var (str!"x"))) (.bin .mul (.lit (str!"11.0")) (.unit (str!"dimensionless")))]),
    ((str!"f64::add_ref_type"), .f64,
     [.bind (str!"x") (.ref (.bin .mul (.lit (str!"1.0")) (.unit (str!"dimensionless")))),
      .bind (str!"y") (.lit (str!"10.0")),
      .close (.bin .add (.var (str!"x")) (.var (str!"y"))) (.bin .mul (.lit (str!"11.0")) (.unit (str!"dimensionless")))]),
    ((str!"f64::add_quantity_reftype"), .f64,
     [.bind (str!"x") (.bin .mul (.lit (str!"1.0")) (.unit (str!"dimensionless"))),
      .bind (str!"y") (.ref (.lit (str!"10.0"))),
      .close (.bin .add (.var (str!"x")) (.var (str!"y"))) (.bin .mul (.lit (str!"11.0")) (.unit (str!"dimensionless")))]),
    ((str!"f64::add_ref_reftype"), .f64,
     [.bind (str!"x") (.ref (.bin .mul (.lit (str!"1.0")) (.unit (str!"dimensionless")))),
      .bind (str!"y") (.ref (.lit (str!"10.0"))),
      .close (.bin .add (.var (str!"x")) (.var (str!"y"))) (.bin .mul (.lit (str!"11.0")) (.unit (str!"dimensionless")))]),
    ((str!"f64::add_assign_quantity_quantity"), .f64,
     [.bind (str!"x") (.bin .mul (.lit (str!"1.0")) (.unit (str!"meters"))),
      .bind (str!"y") (.bin .mul (.lit (str!"10.0")) (.unit (str!"kilometers"))),
      .assign .addAssign (str!"x") (.var (str!"y")),
      .close (.var (str!"x")) (.bin .mul (.lit (str!"10001.0")) (.unit (str!"meters")))]),
    ((str!"f64::add_assign_quantity_ref"), .f64,
     [.bind (str!"x") (.bin .mul (.lit (str!"1.0")) (.unit (str!"meters"))),
      .bind (str!"y") (.bin .mul (.lit (str!"10.0")) (.unit (str!"kilometers"))),
      .assign .addAssign (str!"x") (.ref (.var (str!"y"))),
      .close (.var (str!"x")) (.bin .mul (.lit (str!"10001.0")) (.unit (str!"meters")))]),
    ((str!"f64::add_assign_ref_ref"), .f64,
     [.bind (str!"x") (.mutRef (.bin .mul (.lit (str!"1.0")) (.unit (str!"meters")))),
      .bind (str!"y") (.bin .mul (.lit (str!"10.0")) (.unit (str!"kilometers"))),
      .assign .addAssign (str!"x") (.ref (.var (str!"y"))),
      .close (.deref (.var (str!"x"))) (.bin .mul (.lit (str!"10001.0")) (.unit (str!"meters")))]),
    ((str!"f64::add_assign_quantity_type"), .f64,
     [.bind (str!"x") (.bin .mul (.lit (str!"1.0")) (.unit (str!"dimensionless"))),
      .bind (str!"y") (.lit (str!"10.0")),
      .assign .addAssign (str!"x") (.var (str!"y")),
      .close (.var (str!"x")) (.bin .mul (.lit (str!"11.0")) (.unit (str!"dimensionless")))]),
    ((str!"f64::add_assign_type_quantity"), .f64,
     [.bind (str!"x") (.bin .mul (.lit (str!"1.0")) (.unit (str!"dimensionless"))),
      .bind (str!"y") (.lit (str!"10.0")),
      .assign .addAssign (str!"y") (.var (str!"x")),
      .close (.var (str!"y")) (.lit (str!"11.0"))]),
    ((str!"f64::add_assign_ref_type"), .f64,
     [.bind (str!"x") (.mutRef (.bin .mul (.lit (str!"1.0")) (.unit (str!"dimensionless")))),
      .bind (str!"y") (.lit (str!"10.0")),
      .assign .addAssign (str!"x") (.var (str!"y")),
      .close (.deref (.var (str!"x"))) (.bin .mul (.lit (str!"11.0")) (.unit (str!"dimensionless")))]),
    ((str!"f64::sum_quantity_type"), .f64,
     [.close (.sum4 (.bin .mul (.lit (str!"3.0")) (.unit (str!"meters"))) (.bin .mul (.lit (str!"3.0")) (.unit (str!"kilometers"))) (.bin .mul (.lit (str!"9.0")) (.unit (str!"meters"))) (.bin .mul (.lit (str!"1.0")) (.unit (str!"kilometers")))) (.bin .mul (.lit (str!"4012.0")) (.unit (str!"meters")))]),
    ((str!"f64::sub_different_units"), .f64,
     [.bind (str!"x") (.bin .mul (.lit (str!"1.0")) (.unit (str!"meters"))),
      .bind (str!"y") (.bin .mul (.lit (str!"10.0")) (.unit (str!"kilometers"))),
      .close (.bin .sub (.var (str!"x")) (.var (str!"y"))) (.bin .mul (.lit (str!"-9999.0")) (.unit (str!"meters")))]),
    ((str!"f64::sub_quantity_ref"), .f64,
     [.bind (str!"x") (.bin .mul (.lit (str!"1.0")) (.unit (str!"meters"))),
      .bind (str!"y") (.bin .mul (.lit (str!"10.0")) (.unit (str!"meters"))),
      .close (.bin .sub (.var (str!"x")) (.ref (.var (str!"y")))) (.bin .mul (.lit (str!"-9.0")) (.unit (str!"meters")))]),
    ((str!"f64::sub_ref_ref"), .f64,
     [.bind (str!"x") (.bin .mul (.lit (str!"1.0")) (.unit (str!"meters"))),
      .bind (str!"y") (.bin .mul (.lit (str!"10.0")) (.unit (str!"meters"))),
      .close (.bin .sub (.ref (.var (str!"x"))) (.ref (.var (str!"y")))) (.bin .mul (.lit (str!"-9.0")) (.unit (str!"meters")))]),
    ((str!"f64::sub_quantity_type"), .f64,
     [.bind (str!"x") (.bin .mul (.lit (str!"1.0")) (.unit (str!"dimensionless"))),
      .bind (str!"y") (.lit (str!"10.0")),
      .close (.bin .sub (.var (str!"x")) (.var (str!"y"))) (.bin .mul (.lit (str!"-9.0")) (.unit (str!"dimensionless")))]),
    ((str!"f64::sub_type_quantity"), .f64,
     [.bind (str!"x") (.bin .mul (.lit (str!"1.0")) (.unit (str!"dimensionless"))),
      .bind (str!"y") (.lit (str!"10.0")),
      .close (.bin .sub (.var (str!"y")) (.var (str!"x"))) (.bin .mul (.lit (str!"9.0")) (.unit (str!"dimensionless")))]),
    ((str!"f64::sub_ref_type"), .f64,
     [.bind (str!"x") (.ref (.bin .mul (.lit (str!"1.0")) (.unit (str!"dimensionless")))),
      .bind (str!"y") (.lit (str!"10.0")),
      .close (.bin .sub (.var (str!"x")) (.var (str!"y"))) (.bin .mul (.lit (str!"-9.0")) (.unit (str!"dimensionless")))]),
    ((str!"f64::sub_quantity_reftype"), .f64,
     [.bind (str!"x") (.bin .mul (.lit (str!"1.0")) (.unit (str!"dimensionless"))),
      .bind (str!"y") (.ref (.lit (str!"10.0"))),
      .close (.bin .sub (.var (str!"x")) (.var (str!"y"))) (.bin .mul (.lit (str!"-9.0")) (.unit (str!"dimensionless")))]),
    ((str!"f64::sub_ref_reftype"), .f64,
     [.bind (str!"x") (.ref (.bin .mul (.lit (str!"1.0")) (.unit (str!"dimensionless")))),
      .bind (str!"y") (.ref (.lit (str!"10.0"))),
      .close (.bin .sub (.var (str!"x")) (.var (str!"y"))) (.bin .mul (.lit (str!"-9.0")) (.unit (str!"dimensionless")))]),
    ((str!"f64::sub_assign_quantity_quantity"), .f64,
     [.bind (str!"x") (.bin .mul (.lit (str!"1.0")) (.unit (str!"meters"))),
      .bind (str!"y") (.bin .mul (.lit (str!"10.0")) (.unit (str!"kilometers"))),
      .assign .subAssign (str!"x") (.var (str!"y")),
      .close (.var (str!"x")) (.bin .mul (.lit (str!"-9999.0")) (.unit (str!"meters")))]),
    ((str!"f64::sub_assign_quantity_ref"), .f64,
     [.bind (str!"x") (.bin .mul (.lit (str!"1.0")) (.unit (str!"meters"))),
      .bind (str!"y") (.bin .mul (.lit (str!"10.0")) (.unit (str!"kilometers"))),
      .assign .subAssign (str!"x") (.ref (.var (str!"y"))),
      .close (.var (str!"x")) (.bin .mul (.lit (str!"-9999.0")) (.unit (str!"meters")))]),
    ((str!"f64::sub_assign_ref_quantity"), .f64,
     [.bind (str!"x") (.mutRef (.bin .mul (.lit (str!"1.0")) (.unit (str!"meters")))),
      .bind (str!"y") (.bin .mul (.lit (str!"10.0")) (.unit (str!"kilometers"))),
      .assign .subAssign (str!"x") (.var (str!"y")),
      .close (.deref (.var (str!"x"))) (.bin .mul (.lit (str!"-9999.0")) (.unit (str!"meters")))]),
    ((str!"f64::sub_assign_ref_ref"), .f64,
     [.bind (str!"x") (.mutRef (.bin .mul (.lit (str!"1.0")) (.unit (str!"meters")))),
      .bind (str!"y") (.bin .mul (.lit (str!"10.0")) (.unit (str!"kilometers"))),
      .assign .subAssign (str!"x") (.ref (.var (str!"y"))),
      .close (.deref (.var (str!"x"))) (.bin .mul (.lit (str!"-9999.0")) (.unit (str!"meters")))]),
    ((str!"f64::sub_assign_quantity_type"), .f64,
     [.bind (str!"x") (.bin .mul (.lit (str!"1.0")) (.unit (str!"dimensionless"))),
      .bind (str!"y") (.lit (str!"10.0")),
      .assign .subAssign (str!"x") (.var (str!"y")),
      .close (.var (str!"x")) (.bin .mul (.lit (str!"-9.0")) (.unit (str!"dimensionless")))]),
    ((str!"f64::sub_assign_type_quantity"), .f64,
     [.bind (str!"x") (.bin .mul (.lit (str!"1.0")) (.unit (str!"dimensionless"))),
      .bind (str!"y") (.lit (str!"10.0")),
      .assign .subAssign (str!"y") (.var (str!"x")),
      .close (.var (str!"y")) (.lit (str!"9.0"))]),
    ((str!"f64::sub_assign_ref_type"), .f64,
     [.bind (str!"x") (.mutRef (.bin .mul (.lit (str!"1.0")) (.unit (str!"dimensionless")))),
      .bind (str!"y") (.lit (str!"10.0")),
      .assign .subAssign (str!"x") (.var (str!"y")),
      .close (.deref (.var (str!"x"))) (.bin .mul (.lit (str!"-9.0")) (.unit (str!"dimensionless")))]),
    ((str!"f64::neg_quantity"), .f64,
     [.bind (str!"x") (.bin .mul (.lit (str!"5.0")) (.unit (str!"meters"))),
      .bind (str!"y") (.bin .mul (.lit (str!"2.0")) (.unit (str!"meters"))),
      .close (.bin .add (.var (str!"x")) (.call1 .neg (.var (str!"y")))) (.bin .mul (.lit (str!"3.0")) (.unit (str!"meters"))),
      .close (.bin .sub (.var (str!"x")) (.var (str!"y"))) (.bin .mul (.lit (str!"3.0")) (.unit (str!"meters")))]),
    ((str!"f64::mul_quantity_quantity"), .f64,
     [.bind (str!"x") (.bin .mul (.lit (str!"2.0")) (.unit (str!"newtons"))),
      .bind (str!"y") (.bin .mul (.lit (str!"3.0")) (.unit (str!"meters"))),
      .close (.bin .mul (.var (str!"x")) (.var (str!"y"))) (.bin .mul (.lit (str!"6.0")) (.unit (str!"joules")))]),
    ((str!"f64::mul_quantity_ref"), .f64,
     [.bind (str!"x") (.bin .mul (.lit (str!"2.0")) (.unit (str!"newtons"))),
      .bind (str!"y") (.bin .mul (.lit (str!"3.0")) (.unit (str!"meters"))),
      .close (.bin .mul (.var (str!"x")) (.ref (.var (str!"y")))) (.bin .mul (.lit (str!"6.0")) (.unit (str!"joules")))]),
    ((str!"f64::mul_ref_quantity"), .f64,
     [.bind (str!"x") (.bin .mul (.lit (str!"2.0")) (.unit (str!"newtons"))),
      .bind (str!"y") (.bin .mul (.lit (str!"3.0")) (.unit (str!"meters"))),
      .close (.bin .mul (.ref (.var (str!"x"))) (.var (str!"y"))) (.bin .mul (.lit (str!"6.0")) (.unit (str!"joules")))]),
    ((str!"f64::mul_ref_ref"), .f64,
     [.bind (str!"x") (.bin .mul (.lit (str!"2.0")) (.unit (str!"newtons"))),
      .bind (str!"y") (.bin .mul (.lit (str!"3.0")) (.unit (str!"meters"))),
      .close (.bin .mul (.ref (.var (str!"x"))) (.ref (.var (str!"y")))) (.bin .mul (.lit (str!"6.0")) (.unit (str!"joules")))]),
    ((str!"f64::mul_quantity_type"), .f64,
     [.bind (str!"x") (.bin .mul (.lit (str!"2.0")) (.unit (str!"newtons"))),
      .bind (str!"y") (.lit (str!"3.0")),
      .close (.bin .mul (.var (str!"x")) (.var (str!"y"))) (.bin .mul (.lit (str!"6.0")) (.unit (str!"newtons")))]),
    ((str!"f64::mul_type_quantity"), .f64,
     [.bind (str!"x") (.lit (str!"3.0")),
      .bind (str!"y") (.bin .mul (.lit (str!"2.0")) (.unit (str!"newtons"))),
      .close (.bin .mul (.var (str!"x")) (.var (str!"y"))) (.bin .mul (.lit (str!"6.0")) (.unit (str!"newtons")))]),
    ((str!"f64::mul_quantity_typeref"), .f64,
     [.bind (str!"x") (.bin .mul (.lit (str!"2.0")) (.unit (str!"newtons"))),
      .bind (str!"y") (.ref (.lit (str!"3.0"))),
      .close (.bin .mul (.var (str!"x")) (.var (str!"y"))) (.bin .mul (.lit (str!"6.0")) (.unit (str!"newtons")))])] = some [] := by decide +kernel

/-- tests/float/mod.rs for f64 -/
example : failing exampleSystem
   [((str!"f64::mul_ref_type"), .f64,
     [.bind (str!"x") (.ref (.bin .mul (.lit (str!"2.0")) (.unit (str!"newtons")))),
      .bind (str!"y") (.lit (str!"3.0")),
      .close (.bin .mul (.var (str!"x")) (.var (str!"y"))) (.bin .mul (.lit (str!"6.0")) (.unit (str!"newtons")))]),
    ((str!"f64::mul_ref_typeref"), .f64,
     [.bind (str!"x") (.ref (.bin .mul (.lit (str!"2.0")) (.unit (str!"newtons")))),
      .bind (str!"y") (.ref (.lit (str!"3.0"))),
      .close (.bin .mul (.var (str!"x")) (.var (str!"y"))) (.bin .mul (.lit (str!"6.0")) (.unit (str!"newtons")))]),
    ((str!"f64::mul_assign_quantity_quantity"), .f64,
     [.bind (str!"x") (.bin .mul (.lit (str!"2.0")) (.unit (str!"newtons"))),
      .bind (str!"y") (.bin .mul (.lit (str!"3.0")) (.unit (str!"dimensionless"))),
      .assign .mulAssign (str!"x") (.var (str!"y")),
      .close (.var (str!"x")) (.bin .mul (.lit (str!"6.0")) (.unit (str!"newtons")))]),
    ((str!"f64::mul_assign_quantity_ref"), .f64,
     [.bind (str!"x") (.bin .mul (.lit (str!"2.0")) (.unit (str!"newtons"))),
      .bind (str!"y") (.bin .mul (.lit (str!"3.0")) (.unit (str!"dimensionless"))),
      .assign .mulAssign (str!"x") (.ref (.var (str!"y"))),
      .close (.var (str!"x")) (.bin .mul (.lit (str!"6.0")) (.unit (str!"newtons")))]),
    ((str!"f64::mul_assign_ref_quantity"), .f64,
     [.bind (str!"x") (.mutRef (.bin .mul (.lit (str!"2.0")) (.unit (str!"newtons")))),
      .bind (str!"y") (.bin .mul (.lit (str!"3.0")) (.unit (str!"dimensionless"))),
      .assign .mulAssign (str!"x") (.var (str!"y")),
      .close (.deref (.var (str!"x"))) (.bin .mul (.lit (str!"6.0")) (.unit (str!"newtons")))]),
    ((str!"f64::mul_assign_ref_ref"), .f64,
     [.bind (str!"x") (.mutRef (.bin .mul (.lit (str!"2.0")) (.unit (str!"newtons")))),
      .bind (str!"y") (.bin .mul (.lit (str!"3.0")) (.unit (str!"dimensionless"))),
      .assign .mulAssign (str!"x") (.ref (.var (str!"y"))),
      .close (.deref (.var (str!"x"))) (.bin .mul (.lit (str!"6.0")) (.unit (str!"newtons")))]),
    ((str!"f64::mul_assign_quantity_type"), .f64,
     [.bind (str!"x") (.bin .mul (.lit (str!"2.0")) (.unit (str!"newtons"))),
      .bind (str!"y") (.lit (str!"3.0")),
      .assign .mulAssign (str!"x") (.var (str!"y")),
      .close (.var (str!"x")) (.bin .mul (.lit (str!"6.0")) (.unit (str!"newtons")))]),
    ((str!"f64::mul_assign_type_quantity"), .f64,
     [.bind (str!"x") (.lit (str!"3.0")),
      .bind (str!"y") (.bin .mul (.lit (str!"2.0")) (.unit (str!"dimensionless"))),
      .assign .mulAssign (str!"x") (.var (str!"y")),
      .close (.var (str!"x")) (.lit (str!"6.0"))]),
    ((str!"f64::mul_assign_type_ref"), .f64,
     [.bind (str!"x") (.lit (str!"3.0")),
      .bind (str!"y") (.ref (.bin .mul (.lit (str!"2.0")) (.unit (str!"dimensionless")))),
      .assign .mulAssign (str!"x") (.var (str!"y")),
      .close (.var (str!"x")) (.lit (str!"6.0"))]),
    ((str!"f64::div_quantity_quantity"), .f64,
     [.bind (str!"x") (.bin .mul (.lit (str!"6.0")) (.unit (str!"meters"))),
      .bind (str!"y") (.bin .mul (.lit (str!"2.0")) (.unit (str!"seconds"))),
      .close (.bin .div (.var (str!"x")) (.var (str!"y"))) (.bin .mul (.lit (str!"3.0")) (.unit (str!"meters_per_second")))]),
    ((str!"f64::div_quantity_ref"), .f64,
     [.bind (str!"x") (.bin .mul (.lit (str!"6.0")) (.unit (str!"meters"))),
      .bind (str!"y") (.bin .mul (.lit (str!"2.0")) (.unit (str!"seconds"))),
      .close (.bin .div (.var (str!"x")) (.ref (.var (str!"y")))) (.bin .mul (.lit (str!"3.0")) (.unit (str!"meters_per_second")))]),
    ((str!"f64::div_ref_quantity"), .f64,
     [.bind (str!"x") (.bin .mul (.lit (str!"6.0")) (.unit (str!"meters"))),
      .bind (str!"y") (.bin .mul (.lit (str!"2.0")) (.unit (str!"seconds"))),
      .close (.bin .div (.ref (.var (str!"x"))) (.var (str!"y"))) (.bin .mul (.lit (str!"3.0")) (.unit (str!"meters_per_second")))]),
    ((str!"f64::div_ref_ref"), .f64,
     [.bind (str!"x") (.bin .mul (.lit (str!"6.0")) (.unit (str!"meters"))),
      .bind (str!"y") (.bin .mul (.lit (str!"2.0")) (.unit (str!"seconds"))),
      .close (.bin .div (.ref (.var (str!"x"))) (.ref (.var (str!"y")))) (.bin .mul (.lit (str!"3.0")) (.unit (str!"meters_per_second")))]),
    ((str!"f64::div_assign_quantity_quantity"), .f64,
     [.bind (str!"x") (.bin .mul (.lit (str!"2.0")) (.unit (str!"newtons"))),
      .bind (str!"y") (.bin .mul (.lit (str!"4.0")) (.unit (str!"dimensionless"))),
      .assign .divAssign (str!"x") (.var (str!"y")),
      .close (.var (str!"x")) (.bin .mul (.lit (str!"0.5")) (.unit (str!"newtons")))]),
    ((str!"f64::div_assign_quantity_ref"), .f64,
     [.bind (str!"x") (.bin .mul (.lit (str!"2.0")) (.unit (str!"newtons"))),
      .bind (str!"y") (.bin .mul (.lit (str!"4.0")) (.unit (str!"dimensionless"))),
      .assign .divAssign (str!"x") (.ref (.var (str!"y"))),
      .close (.var (str!"x")) (.bin .mul (.lit (str!"0.5")) (.unit (str!"newtons")))]),
    ((str!"f64::div_assign_ref_quantity"), .f64,
     [.bind (str!"x") (.mutRef (.bin .mul (.lit (str!"2.0")) (.unit (str!"newtons")))),
      .bind (str!"y") (.bin .mul (.lit (str!"4.0")) (.unit (str!"dimensionless"))),
      .assign .divAssign (str!"x") (.var (str!"y")),
      .close (.deref (.var (str!"x"))) (.bin .mul (.lit (str!"0.5")) (.unit (str!"newtons")))]),
    ((str!"f64::div_assign_ref_ref"), .f64,
     [.bind (str!"x") (.mutRef (.bin .mul (.lit (str!"2.0")) (.unit (str!"newtons")))),
      .bind (str!"y") (.bin .mul (.lit (str!"4.0")) (.unit (str!"dimensionless"))),
      .assign .divAssign (str!"x") (.ref (.var (str!"y"))),
      .close (.deref (.var (str!"x"))) (.bin .mul (.lit (str!"0.5")) (.unit (str!"newtons")))]),
    ((str!"f64::div_quantity_type"), .f64,
     [.bind (str!"x") (.bin .mul (.lit (str!"6.0")) (.unit (str!"meters"))),
      .bind (str!"y") (.lit (str!"2.0")),
      .close (.bin .div (.var (str!"x")) (.var (str!"y"))) (.bin .mul (.lit (str!"3.0")) (.unit (str!"meters")))]),
    ((str!"f64::div_quantity_reftype"), .f64,
     [.bind (str!"x") (.bin .mul (.lit (str!"6.0")) (.unit (str!"meters"))),
      .bind (str!"y") (.ref (.lit (str!"2.0"))),
      .close (.bin .div (.var (str!"x")) (.var (str!"y"))) (.bin .mul (.lit (str!"3.0")) (.unit (str!"meters")))]),
    ((str!"f64::div_ref_type"), .f64,
     [.bind (str!"x") (.ref (.bin .mul (.lit (str!"6.0")) (.unit (str!"meters")))),
      .bind (str!"y") (.lit (str!"2.0")),
      .close (.bin .div (.var (str!"x")) (.var (str!"y"))) (.bin .mul (.lit (str!"3.0")) (.unit (str!"meters")))]),
    ((str!"f64::div_ref_reftype"), .f64,
     [.bind (str!"x") (.ref (.bin .mul (.lit (str!"6.0")) (.unit (str!"meters")))),
      .bind (str!"y") (.ref (.lit (str!"2.0"))),
      .close (.bin .div (.var (str!"x")) (.var (str!"y"))) (.bin .mul (.lit (str!"3.0")) (.unit (str!"meters")))]),
    ((str!"f64::div_assign_quantity_type"), .f64,
     [.bind (str!"x") (.bin .mul (.lit (str!"6.0")) (.unit (str!"meters"))),
      .bind (str!"y") (.lit (str!"2.0")),
      .assign .divAssign (str!"x") (.var (str!"y")),
      .close (.var (str!"x")) (.bin .mul (.lit (str!"3.0")) (.unit (str!"meters")))]),
    ((str!"f64::div_type_quantity"), .f64,
     [.bind (str!"x") (.lit (str!"2.0")),
      .bind (str!"y") (.bin .mul (.lit (str!"6.0")) (.unit (str!"meters_per_second"))),
      .close (.bin .div (.var (str!"x")) (.var (str!"y"))) (.bin .div (.bin .mul (.lit (str!"2.0")) (.unit (str!"seconds"))) (.bin .mul (.lit (str!"6.0")) (.unit (str!"meters"))))]),
    ((str!"f64::div_assign_type_quantity"), .f64,
     [.bind (str!"x") (.lit (str!"6.0")),
      .bind (str!"y") (.bin .mul (.lit (str!"2.0")) (.unit (str!"dimensionless"))),
      .assign .divAssign (str!"x") (.var (str!"y")),
      .close (.var (str!"x")) (.lit (str!"3.0"))]),
    ((str!"f64::sqrt_float_quantity"), .f64,
     [.bind (str!"x") (.call1 (.powi 2) (.bin .mul (.lit (str!"6.0")) (.unit (str!"meters")))),
      .bind (str!"y") (.call1 (.powi 2) (.bin .mul (.lit (str!"2.0")) (.unit (str!"seconds")))),
      .close (.call1 .sqrt (.bin .div (.var (str!"x")) (.var (str!"y")))) (.bin .mul (.lit (str!"3.0")) (.unit (str!"meters_per_second")))]),
    ((str!"f64::cbrt_float_quantity"), .f64,
     [.bind (str!"x") (.call1 (.powi 3) (.bin .mul (.lit (str!"4.0")) (.unit (str!"meters")))),
      .bind (str!"y") (.call1 (.powi 3) (.bin .mul (.lit (str!"1.0")) (.unit (str!"seconds")))),
      .close (.call1 .cbrt (.bin .div (.var (str!"x")) (.var (str!"y")))) (.bin .mul (.lit (str!"4.0")) (.unit (str!"meters_per_second")))]),
    ((str!"f64::constant"), .f64,
     [.close (.bin .mul (.lit (str!"1.0")) (.unit (str!"SOLAR_MASS"))) (.bin .mul (.lit (str!"1.988477e30")) (.unit (str!"kilograms"))),
      .close (.bin .mul (.lit (str!"1.0")) (.unit (str!"SOLAR_MASS_GRAMS"))) (.bin .mul (.lit (str!"1.988477e30")) (.unit (str!"kilograms"))),
      .close (.bin .mul (.lit (str!"1.0")) (.unit (str!"SOLAR_MASS_AWKWARD"))) (.bin .mul (.lit (str!"1.988477e30")) (.unit (str!"kilograms")))]),
    ((str!"f64::log2"), .f64,
     [.bind (str!"x") (.bin .mul (.lit (str!"128.0")) (.unit (str!"dimensionless"))),
      .close (.call1 (.dimensionless .log2) (.var (str!"x"))) (.bin .mul (.lit (str!"7.0")) (.unit (str!"dimensionless")))]),
    ((str!"f64::deref_dimensionless"), .f64,
     [.bind (str!"x") (.bin .mul (.lit (str!"128.3")) (.unit (str!"dimensionless"))),
      .assert (.bin .partialEq (.float (roundFloat .f64) (.call1 .deref (.var (str!"x")))) (.lit (str!"128.0")))]),
    ((str!"f64::partial_eq_quantity_quantity"), .f64,
     [.bind (str!"x") (.bin .mul (.lit (str!"50.0")) (.unit (str!"meters"))),
      .bind (str!"y") (.bin .mul (.lit (str!"50.0")) (.unit (str!"meters"))),
      .assert (.bin .partialEq (.var (str!"x")) (.var (str!"y")))]),
    ((str!"f64::partial_eq_quantity_ref"), .f64,
     [.bind (str!"x") (.bin .mul (.lit (str!"50.0")) (.unit (str!"meters"))),
      .bind (str!"y") (.bin .mul (.lit (str!"50.0")) (.unit (str!"meters"))),
      .assert (.bin .partialEq (.var (str!"x")) (.ref (.var (str!"y"))))]),
    ((str!"f64::partial_eq_ref_quantity"), .f64,
     [.bind (str!"x") (.bin .mul (.lit (str!"50.0")) (.unit (str!"meters"))),
      .bind (str!"y") (.bin .mul (.lit (str!"50.0")) (.unit (str!"meters"))),
      .assert (.bin .partialEq (.ref (.var (str!"x"))) (.var (str!"y")))]),
    ((str!"f64::partial_eq_ref_ref"), .f64,
     [.bind (str!"x") (.bin .mul (.lit (str!"50.0")) (.unit (str!"meters"))),
      .bind (str!"y") (.bin .mul (.lit (str!"50.0")) (.unit (str!"meters"))),
      .assert (.bin .partialEq (.ref (.var (str!"x"))) (.ref (.var (str!"y"))))]),
    ((str!"f64::partial_eq_quantity_type"), .f64,
     [.bind (str!"x") (.bin .mul (.lit (str!"50.0")) (.unit (str!"dimensionless"))),
      .bind (str!"y") (.lit (str!"50.0")),
      .assert (.bin .partialEq (.var (str!"x")) (.var (str!"y")))]),
    ((str!"f64::partial_eq_type_quantity"), .f64,
     [.bind (str!"x") (.lit (str!"50.0")),
      .bind (str!"y") (.bin .mul (.lit (str!"50.0")) (.unit (str!"dimensionless"))),
      .assert (.bin .partialEq (.var (str!"x")) (.var (str!"y")))]),
    ((str!"f64::partial_ord_quantity_quantity"), .f64,
     [.bind (str!"x") (.bin .mul (.lit (str!"50.0")) (.unit (str!"meters"))),
      .bind (str!"y") (.bin .mul (.lit (str!"49.0")) (.unit (str!"meters"))),
      .assert (.gt (.var (str!"x")) (.var (str!"y")))]),
    ((str!"f64::partial_ord_quantity_type"), .f64,
     [.bind (str!"x") (.bin .mul (.lit (str!"50.0")) (.unit (str!"dimensionless"))),
      .bind (str!"y") (.lit (str!"49.0")),
      .assert (.ge (.var (str!"x")) (.var (str!"y")))]),
    ((str!"f64::partial_ord_type_quantity"), .f64,
     [.bind (str!"x") (.lit (str!"50.0")),
      .bind (str!"y") (.bin .mul (.lit (str!"49.0")) (.unit (str!"dimensionless"))),
      .assert (.gt (.var (str!"x")) (.var (str!"y")))]),
    ((str!"f64::clamp_quantity_quantity"), .f64,
     [.bind (str!"x") (.bin .mul (.lit (str!"10.0")) (.unit (str!"meters"))),
      .bind (str!"y") (.bin .mul (.lit (str!"20.0")) (.unit (str!"kilometers"))),
      .assert (.bin .partialEq (.call3 .clamp (.bin .mul (.lit (str!"1.0")) (.unit (str!"meters"))) (.var (str!"x")) (.var (str!"y"))) (.var (str!"x"))),
      .assert (.bin .partialEq (.call3 .clamp (.bin .mul (.lit (str!"50.0")) (.unit (str!"meters"))) (.var (str!"x")) (.var (str!"y"))) (.bin .mul (.lit (str!"50.0")) (.unit (str!"meters")))),
      .assert (.bin .partialEq (.call3 .clamp (.bin .mul (.lit (str!"50000.0")) (.unit (str!"meters"))) (.var (str!"x")) (.var (str!"y"))) (.var (str!"y")))]),
    ((str!"f64::clamp_quantity_type"), .f64,
     [.bind (str!"x") (.lit (str!"10.0")),
      .bind (str!"y") (.lit (str!"20.0")),
      .assert (.bin .partialEq (.call3 .clamp (.bin .mul (.lit (str!"5.0")) (.unit (str!"dimensionless"))) (.var (str!"x")) (.var (str!"y"))) (.var (str!"x"))),
      .assert (.bin .partialEq (.call3 .clamp (.bin .mul (.lit (str!"15.0")) (.unit (str!"dimensionless"))) (.var (str!"x")) (.var (str!"y"))) (.bin .mul (.lit (str!"15.0")) (.unit (str!"dimensionless")))),
      .assert (.bin .partialEq (.call3 .clamp (.bin .mul (.lit (str!"50.0")) (.unit (str!"dimensionless"))) (.var (str!"x")) (.var (str!"y"))) (.var (str!"y")))])] = some [] := by decide +kernel

/-- tests/float/mod.rs for f64 -/
example : failing exampleSystem
   [((str!"f64::max_quantity_quantity"), .f64,
     [.bind (str!"x") (.bin .mul (.lit (str!"10.0")) (.unit (str!"meters"))),
      .assert (.bin .partialEq (.call2 .max (.bin .mul (.lit (str!"5.0")) (.unit (str!"meters"))) (.var (str!"x"))) (.var (str!"x"))),
      .assert (.bin .partialEq (.call2 .max (.bin .mul (.lit (str!"15.0")) (.unit (str!"meters"))) (.var (str!"x"))) (.bin .mul (.lit (str!"15.0")) (.unit (str!"meters"))))]),
    ((str!"f64::max_quantity_type"), .f64,
     [.bind (str!"x") (.lit (str!"10.0")),
      .assert (.bin .partialEq (.call2 .max (.bin .mul (.lit (str!"5.0")) (.unit (str!"dimensionless"))) (.var (str!"x"))) (.var (str!"x"))),
      .assert (.bin .partialEq (.call2 .max (.bin .mul (.lit (str!"15.0")) (.unit (str!"dimensionless"))) (.var (str!"x"))) (.bin .mul (.lit (str!"15.0")) (.unit (str!"dimensionless"))))]),
    ((str!"f64::min_quantity_quantity"), .f64,
     [.bind (str!"x") (.bin .mul (.lit (str!"10.0")) (.unit (str!"meters"))),
      .assert (.bin .partialEq (.call2 .min (.bin .mul (.lit (str!"5.0")) (.unit (str!"meters"))) (.var (str!"x"))) (.bin .mul (.lit (str!"5.0")) (.unit (str!"meters")))),
      .assert (.bin .partialEq (.call2 .min (.bin .mul (.lit (str!"15.0")) (.unit (str!"meters"))) (.var (str!"x"))) (.var (str!"x")))]),
    ((str!"f64::min_quantity_type"), .f64,
     [.bind (str!"x") (.lit (str!"10.0")),
      .assert (.bin .partialEq (.call2 .min (.bin .mul (.lit (str!"5.0")) (.unit (str!"dimensionless"))) (.var (str!"x"))) (.bin .mul (.lit (str!"5.0")) (.unit (str!"dimensionless")))),
      .assert (.bin .partialEq (.call2 .min (.bin .mul (.lit (str!"15.0")) (.unit (str!"dimensionless"))) (.var (str!"x"))) (.var (str!"x")))])] = some [] := by decide +kernel

/-- tests/serde/mod.rs for f32 -/
example : failing exampleSystem
   [((str!"f32::deserialize_float"), .f32,
     [.read (str!"q") (str!"Length") .f32 (str!"5.0 km"),
      .close (.var (str!"q")) (.bin .mul (.lit (str!"5.0")) (.unit (str!"kilometers"))),
      .read (str!"q") (str!"Velocity") .f32 (str!"5.0 km s^-1"),
      .close (.var (str!"q")) (.bin .div (.bin .mul (.lit (str!"5.0")) (.unit (str!"kilometers"))) (.bin .mul (.lit (str!"1.0")) (.unit (str!"seconds"))))]),
    ((str!"f32::deserialize_float_dimension_mismatch"), .f32,
     [.readFails (str!"Length") .f32 (str!"5.0 kg")]),
    ((str!"f32::serialize_float"), .f32,
     [.serialize (.bin .mul (.lit (str!"5.0")) (.unit (str!"kilometers"))) (str!"5000 m"),
      .serialize (.bin .mul (.lit (str!"5.0")) (.unit (str!"joules"))) (str!"5 J")]),
    ((str!"f32::serialize_float_unnamed_dimension"), .f32,
     [.bind (str!"unnamed_dimension") (.bin .mul (.bin .mul (.lit (str!"5.0")) (.unit (str!"joules"))) (.bin .mul (.lit (str!"1.0")) (.unit (str!"meters")))),
      .serialize (.var (str!"unnamed_dimension")) (str!"5 m^3 s^-2 kg")])] = some [] := by decide +kernel

/-- tests/serde/mod.rs for f64 -/
example : failing exampleSystem
   [((str!"f64::deserialize_float"), .f64,
     [.read (str!"q") (str!"Length") .f64 (str!"5.0 km"),
      .close (.var (str!"q")) (.bin .mul (.lit (str!"5.0")) (.unit (str!"kilometers"))),
      .read (str!"q") (str!"Velocity") .f64 (str!"5.0 km s^-1"),
      .close (.var (str!"q")) (.bin .div (.bin .mul (.lit (str!"5.0")) (.unit (str!"kilometers"))) (.bin .mul (.lit (str!"1.0")) (.unit (str!"seconds"))))]),
    ((str!"f64::deserialize_float_dimension_mismatch"), .f64,
     [.readFails (str!"Length") .f64 (str!"5.0 kg")]),
    ((str!"f64::serialize_float"), .f64,
     [.serialize (.bin .mul (.lit (str!"5.0")) (.unit (str!"kilometers"))) (str!"5000 m"),
      .serialize (.bin .mul (.lit (str!"5.0")) (.unit (str!"joules"))) (str!"5 J")]),
    ((str!"f64::serialize_float_unnamed_dimension"), .f64,
     [.bind (str!"unnamed_dimension") (.bin .mul (.bin .mul (.lit (str!"5.0")) (.unit (str!"joules"))) (.bin .mul (.lit (str!"1.0")) (.unit (str!"meters")))),
      .serialize (.var (str!"unnamed_dimension")) (str!"5 m^3 s^-2 kg")])] = some [] := by decide +kernel

/-- tests/serde/mod.rs for vec2 -/
example : failing exampleSystem
   [((str!"vec2::deserialize_vector"), .f32,
     [.read (str!"q") (str!"Length") .vec2 (str!"(5.0 3.0) km"),
      .close (.call1 (.axis .x) (.var (str!"q"))) (.bin .mul (.lit (str!"5.0")) (.unit (str!"kilometers"))),
      .close (.call1 (.axis .y) (.var (str!"q"))) (.bin .mul (.lit (str!"3.0")) (.unit (str!"kilometers")))]),
    ((str!"vec2::deserialize_vector_fails_with_fewer_than_2_components"), .f32,
     [.readFails (str!"Length") .vec2 (str!"(5.0) km")]),
    ((str!"vec2::deserialize_vector_fails_with_more_than_2_components"), .f32,
     [.readFails (str!"Length") .vec2 (str!"(5.0 3.0 7.0) km")]),
    ((str!"vec2::serialize_vector"), .f32,
     [.bind (str!"x") (.bin .mul (.unit (str!"meters")) (.vec .vec2 [(str!"5.3"), (str!"1.1")])),
      .serialize (.var (str!"x")) (str!"(5.3 1.1) m")]),
    ((str!"vec2::serialize_dimensionless_vector"), .f32,
     [.bind (str!"x") (.bin .mul (.unit (str!"dimensionless")) (.vec .vec2 [(str!"5.3"), (str!"1.1")])),
      .serialize (.var (str!"x")) (str!"(5.3 1.1)")])] = some [] := by decide +kernel

/-- tests/serde/mod.rs for dvec2 -/
example : failing exampleSystem
   [((str!"dvec2::deserialize_vector"), .f64,
     [.read (str!"q") (str!"Length") .dvec2 (str!"(5.0 3.0) km"),
      .close (.call1 (.axis .x) (.var (str!"q"))) (.bin .mul (.lit (str!"5.0")) (.unit (str!"kilometers"))),
      .close (.call1 (.axis .y) (.var (str!"q"))) (.bin .mul (.lit (str!"3.0")) (.unit (str!"kilometers")))]),
    ((str!"dvec2::deserialize_vector_fails_with_fewer_than_2_components"), .f64,
     [.readFails (str!"Length") .dvec2 (str!"(5.0) km")]),
    ((str!"dvec2::deserialize_vector_fails_with_more_than_2_components"), .f64,
     [.readFails (str!"Length") .dvec2 (str!"(5.0 3.0 7.0) km")]),
    ((str!"dvec2::serialize_vector"), .f64,
     [.bind (str!"x") (.bin .mul (.unit (str!"meters")) (.vec .dvec2 [(str!"5.3"), (str!"1.1")])),
      .serialize (.var (str!"x")) (str!"(5.3 1.1) m")]),
    ((str!"dvec2::serialize_dimensionless_vector"), .f64,
     [.bind (str!"x") (.bin .mul (.unit (str!"dimensionless")) (.vec .dvec2 [(str!"5.3"), (str!"1.1")])),
      .serialize (.var (str!"x")) (str!"(5.3 1.1)")])] = some [] := by decide +kernel

/-- tests/serde/mod.rs for vec3 -/
example : failing exampleSystem
   [((str!"vec3::deserialize_vector"), .f32,
     [.read (str!"q") (str!"Length") .vec3 (str!"(5.0 3.0 7.0) km"),
      .close (.call1 (.axis .x) (.var (str!"q"))) (.bin .mul (.lit (str!"5.0")) (.unit (str!"kilometers"))),
      .close (.call1 (.axis .y) (.var (str!"q"))) (.bin .mul (.lit (str!"3.0")) (.unit (str!"kilometers"))),
      .close (.call1 (.axis .z) (.var (str!"q"))) (.bin .mul (.lit (str!"7.0")) (.unit (str!"kilometers")))]),
    ((str!"vec3::deserialize_vector_fails_with_fewer_than_3_components"), .f32,
     [.readFails (str!"Length") .vec3 (str!"(5.0 4.0) km")]),
    ((str!"vec3::deserialize_vector_fails_with_more_than_3_components"), .f32,
     [.readFails (str!"Length") .vec3 (str!"(5.0 3.0 7.0 9.0) km")]),
    ((str!"vec3::serialize_vector"), .f32,
     [.bind (str!"x") (.bin .mul (.unit (str!"meters")) (.vec .vec3 [(str!"5.3"), (str!"1.1"), (str!"2.2")])),
      .serialize (.var (str!"x")) (str!"(5.3 1.1 2.2) m")]),
    ((str!"vec3::serialize_dimensionless_vector"), .f32,
     [.bind (str!"x") (.bin .mul (.unit (str!"dimensionless")) (.vec .vec3 [(str!"5.3"), (str!"1.1"), (str!"2.2")])),
      .serialize (.var (str!"x")) (str!"(5.3 1.1 2.2)")])] = some [] := by decide +kernel

/-- tests/serde/mod.rs for dvec3 -/
example : failing exampleSystem
   [((str!"dvec3::deserialize_vector"), .f64,
     [.read (str!"q") (str!"Length") .dvec3 (str!"(5.0 3.0 7.0) km"),
      .close (.call1 (.axis .x) (.var (str!"q"))) (.bin .mul (.lit (str!"5.0")) (.unit (str!"kilometers"))),
      .close (.call1 (.axis .y) (.var (str!"q"))) (.bin .mul (.lit (str!"3.0")) (.unit (str!"kilometers"))),
      .close (.call1 (.axis .z) (.var (str!"q"))) (.bin .mul (.lit (str!"7.0")) (.unit (str!"kilometers")))]),
    ((str!"dvec3::deserialize_vector_fails_with_fewer_than_3_components"), .f64,
     [.readFails (str!"Length") .dvec3 (str!"(5.0 4.0) km")]),
    ((str!"dvec3::deserialize_vector_fails_with_more_than_3_components"), .f64,
     [.readFails (str!"Length") .dvec3 (str!"(5.0 3.0 7.0 9.0) km")]),
    ((str!"dvec3::serialize_vector"), .f64,
     [.bind (str!"x") (.bin .mul (.unit (str!"meters")) (.vec .dvec3 [(str!"5.3"), (str!"1.1"), (str!"2.2")])),
      .serialize (.var (str!"x")) (str!"(5.3 1.1 2.2) m")]),
    ((str!"dvec3::serialize_dimensionless_vector"), .f64,
     [.bind (str!"x") (.bin .mul (.unit (str!"dimensionless")) (.vec .dvec3 [(str!"5.3"), (str!"1.1"), (str!"2.2")])),
      .serialize (.var (str!"x")) (str!"(5.3 1.1 2.2)")])] = some [] := by decide +kernel

/-- tests/glam/mod.rs for vec2 -/
example : failing exampleSystem
   [((str!"vec2::debug_vector_2"), .f32,
     [.debug (.bin .mul (.vec .vec2 [(str!"1.0"), (str!"5.0")]) (.bin .mul (.lit (str!"1.0")) (.unit (str!"meters")))) (str!"[1, 5] m")]),
    ((str!"vec2::mul_vec2"), .f32,
     [.bind (str!"multiplied") (.bin .mul (.vec .vec2 [(str!"1.0"), (str!"2.0")]) (.bin .mul (.lit (str!"5.0")) (.unit (str!"meters")))),
      .close (.call1 (.axis .x) (.var (str!"multiplied"))) (.bin .mul (.lit (str!"5.0")) (.unit (str!"meters"))),
      .close (.call1 (.axis .y) (.var (str!"multiplied"))) (.bin .mul (.lit (str!"10.0")) (.unit (str!"meters"))),
      .bindAs (str!"multiplied") (str!"Length") .vec2 (.bin .mul (.bin .mul (.lit (str!"5.0")) (.unit (str!"meters"))) (.vec .vec2 [(str!"1.0"), (str!"2.0")])),
      .close (.call1 (.axis .x) (.var (str!"multiplied"))) (.bin .mul (.lit (str!"5.0")) (.unit (str!"meters"))),
      .close (.call1 (.axis .y) (.var (str!"multiplied"))) (.bin .mul (.lit (str!"10.0")) (.unit (str!"meters")))]),
    ((str!"vec2::mul_quantity_vec2"), .f32,
     [.bind (str!"multiplied") (.bin .mul (.bin .mul (.vec .vec2 [(str!"1.0"), (str!"2.0")]) (.unit (str!"meters_per_second"))) (.bin .mul (.lit (str!"5.0")) (.unit (str!"seconds")))),
      .close (.call1 (.axis .x) (.var (str!"multiplied"))) (.bin .mul (.lit (str!"5.0")) (.unit (str!"meters"))),
      .close (.call1 (.axis .y) (.var (str!"multiplied"))) (.bin .mul (.lit (str!"10.0")) (.unit (str!"meters"))),
      .bind (str!"multiplied") (.bin .mul (.bin .mul (.lit (str!"5.0")) (.unit (str!"seconds"))) (.bin .mul (.vec .vec2 [(str!"1.0"), (str!"2.0")]) (.unit (str!"meters_per_second")))),
      .close (.call1 (.axis .x) (.var (str!"multiplied"))) (.bin .mul (.lit (str!"5.0")) (.unit (str!"meters"))),
      .close (.call1 (.axis .y) (.var (str!"multiplied"))) (.bin .mul (.lit (str!"10.0")) (.unit (str!"meters")))]),
    ((str!"vec2::div_vec2"), .f32,
     [.bind (str!"divided") (.bin .div (.vec .vec2 [(str!"1.0"), (str!"2.0")]) (.bin .mul (.lit (str!"0.2")) (.unit (str!"meters")))),
      .bind (str!"base") (.bin .div (.lit (str!"1.0")) (.bin .mul (.lit (str!"1.0")) (.unit (str!"meters")))),
      .close (.call1 (.axis .x) (.var (str!"divided"))) (.bin .mul (.lit (str!"5.0")) (.var (str!"base"))),
      .close (.call1 (.axis .y) (.var (str!"divided"))) (.bin .mul (.lit (str!"10.0")) (.var (str!"base")))])] = some [] := by decide +kernel

/-- tests/glam/mod.rs for dvec2 -/
example : failing exampleSystem
   [((str!"dvec2::debug_vector_2"), .f64,
     [.debug (.bin .mul (.vec .dvec2 [(str!"1.0"), (str!"5.0")]) (.bin .mul (.lit (str!"1.0")) (.unit (str!"meters")))) (str!"[1, 5] m")]),
    ((str!"dvec2::mul_vec2"), .f64,
     [.bind (str!"multiplied") (.bin .mul (.vec .dvec2 [(str!"1.0"), (str!"2.0")]) (.bin .mul (.lit (str!"5.0")) (.unit (str!"meters")))),
      .close (.call1 (.axis .x) (.var (str!"multiplied"))) (.bin .mul (.lit (str!"5.0")) (.unit (str!"meters"))),
      .close (.call1 (.axis .y) (.var (str!"multiplied"))) (.bin .mul (.lit (str!"10.0")) (.unit (str!"meters"))),
      .bindAs (str!"multiplied") (str!"Length") .dvec2 (.bin .mul (.bin .mul (.lit (str!"5.0")) (.unit (str!"meters"))) (.vec .dvec2 [(str!"1.0"), (str!"2.0")])),
      .close (.call1 (.axis .x) (.var (str!"multiplied"))) (.bin .mul (.lit (str!"5.0")) (.unit (str!"meters"))),
      .close (.call1 (.axis .y) (.var (str!"multiplied"))) (.bin .mul (.lit (str!"10.0")) (.unit (str!"meters")))]),
    ((str!"dvec2::mul_quantity_vec2"), .f64,
     [.bind (str!"multiplied") (.bin .mul (.bin .mul (.vec .dvec2 [(str!"1.0"), (str!"2.0")]) (.unit (str!"meters_per_second"))) (.bin .mul (.lit (str!"5.0")) (.unit (str!"seconds")))),
      .close (.call1 (.axis .x) (.var (str!"multiplied"))) (.bin .mul (.lit (str!"5.0")) (.unit (str!"meters"))),
      .close (.call1 (.axis .y) (.var (str!"multiplied"))) (.bin .mul (.lit (str!"10.0")) (.unit (str!"meters"))),
      .bind (str!"multiplied") (.bin .mul (.bin .mul (.lit (str!"5.0")) (.unit (str!"seconds"))) (.bin .mul (.vec .dvec2 [(str!"1.0"), (str!"2.0")]) (.unit (str!"meters_per_second")))),
      .close (.call1 (.axis .x) (.var (str!"multiplied"))) (.bin .mul (.lit (str!"5.0")) (.unit (str!"meters"))),
      .close (.call1 (.axis .y) (.var (str!"multiplied"))) (.bin .mul (.lit (str!"10.0")) (.unit (str!"meters")))]),
    ((str!"dvec2::div_vec2"), .f64,
     [.bind (str!"divided") (.bin .div (.vec .dvec2 [(str!"1.0"), (str!"2.0")]) (.bin .mul (.lit (str!"0.2")) (.unit (str!"meters")))),
      .bind (str!"base") (.bin .div (.lit (str!"1.0")) (.bin .mul (.lit (str!"1.0")) (.unit (str!"meters")))),
      .close (.call1 (.axis .x) (.var (str!"divided"))) (.bin .mul (.lit (str!"5.0")) (.var (str!"base"))),
      .close (.call1 (.axis .y) (.var (str!"divided"))) (.bin .mul (.lit (str!"10.0")) (.var (str!"base")))])] = some [] := by decide +kernel

/-- tests/glam/mod.rs for vec3 -/
example : failing exampleSystem
   [((str!"vec3::debug_vector_3"), .f32,
     [.debug (.bin .mul (.vec .vec3 [(str!"1.0"), (str!"5.0"), (str!"10.0")]) (.bin .mul (.lit (str!"1.0")) (.unit (str!"meters")))) (str!"[1, 5, 10] m")]),
    ((str!"vec3::mul_vec3"), .f32,
     [.bind (str!"multiplied") (.bin .mul (.vec .vec3 [(str!"1.0"), (str!"2.0"), (str!"3.0")]) (.bin .mul (.lit (str!"5.0")) (.unit (str!"meters")))),
      .close (.call1 (.axis .x) (.var (str!"multiplied"))) (.bin .mul (.lit (str!"5.0")) (.unit (str!"meters"))),
      .close (.call1 (.axis .y) (.var (str!"multiplied"))) (.bin .mul (.lit (str!"10.0")) (.unit (str!"meters"))),
      .close (.call1 (.axis .z) (.var (str!"multiplied"))) (.bin .mul (.lit (str!"15.0")) (.unit (str!"meters"))),
      .bindAs (str!"multiplied") (str!"Length") .vec3 (.bin .mul (.bin .mul (.lit (str!"5.0")) (.unit (str!"meters"))) (.vec .vec3 [(str!"1.0"), (str!"2.0"), (str!"3.0")])),
      .close (.call1 (.axis .x) (.var (str!"multiplied"))) (.bin .mul (.lit (str!"5.0")) (.unit (str!"meters"))),
      .close (.call1 (.axis .y) (.var (str!"multiplied"))) (.bin .mul (.lit (str!"10.0")) (.unit (str!"meters"))),
      .close (.call1 (.axis .z) (.var (str!"multiplied"))) (.bin .mul (.lit (str!"15.0")) (.unit (str!"meters")))]),
    ((str!"vec3::mul_quantity_vec3"), .f32,
     [.bind (str!"multiplied") (.bin .mul (.bin .mul (.vec .vec3 [(str!"1.0"), (str!"2.0"), (str!"3.0")]) (.unit (str!"meters_per_second"))) (.bin .mul (.lit (str!"5.0")) (.unit (str!"seconds")))),
      .close (.call1 (.axis .x) (.var (str!"multiplied"))) (.bin .mul (.lit (str!"5.0")) (.unit (str!"meters"))),
      .close (.call1 (.axis .y) (.var (str!"multiplied"))) (.bin .mul (.lit (str!"10.0")) (.unit (str!"meters"))),
      .close (.call1 (.axis .z) (.var (str!"multiplied"))) (.bin .mul (.lit (str!"15.0")) (.unit (str!"meters"))),
      .bind (str!"multiplied") (.bin .mul (.bin .mul (.lit (str!"5.0")) (.unit (str!"seconds"))) (.bin .mul (.vec .vec3 [(str!"1.0"), (str!"2.0"), (str!"3.0")]) (.unit (str!"meters_per_second")))),
      .close (.call1 (.axis .x) (.var (str!"multiplied"))) (.bin .mul (.lit (str!"5.0")) (.unit (str!"meters"))),
      .close (.call1 (.axis .y) (.var (str!"multiplied"))) (.bin .mul (.lit (str!"10.0")) (.unit (str!"meters"))),
      .close (.call1 (.axis .z) (.var (str!"multiplied"))) (.bin .mul (.lit (str!"15.0")) (.unit (str!"meters")))]),
    ((str!"vec3::div_vec3"), .f32,
     [.bind (str!"divided") (.bin .div (.vec .vec3 [(str!"1.0"), (str!"2.0"), (str!"3.0")]) (.bin .mul (.lit (str!"0.2")) (.unit (str!"meters")))),
      .bind (str!"base") (.bin .div (.lit (str!"1.0")) (.bin .mul (.lit (str!"1.0")) (.unit (str!"meters")))),
      .close (.call1 (.axis .x) (.var (str!"divided"))) (.bin .mul (.lit (str!"5.0")) (.var (str!"base"))),
      .close (.call1 (.axis .y) (.var (str!"divided"))) (.bin .mul (.lit (str!"10.0")) (.var (str!"base"))),
      .close (.call1 (.axis .z) (.var (str!"divided"))) (.bin .mul (.lit (str!"15.0")) (.var (str!"base")))])] = some [] := by decide +kernel

/-- tests/glam/mod.rs for dvec3 -/
example : failing exampleSystem
   [((str!"dvec3::debug_vector_3"), .f64,
     [.debug (.bin .mul (.vec .dvec3 [(str!"1.0"), (str!"5.0"), (str!"10.0")]) (.bin .mul (.lit (str!"1.0")) (.unit (str!"meters")))) (str!"[1, 5, 10] m")]),
    ((str!"dvec3::mul_vec3"), .f64,
     [.bind (str!"multiplied") (.bin .mul (.vec .dvec3 [(str!"1.0"), (str!"2.0"), (str!"3.0")]) (.bin .mul (.lit (str!"5.0")) (.unit (str!"meters")))),
      .close (.call1 (.axis .x) (.var (str!"multiplied"))) (.bin .mul (.lit (str!"5.0")) (.unit (str!"meters"))),
      .close (.call1 (.axis .y) (.var (str!"multiplied"))) (.bin .mul (.lit (str!"10.0")) (.unit (str!"meters"))),
      .close (.call1 (.axis .z) (.var (str!"multiplied"))) (.bin .mul (.lit (str!"15.0")) (.unit (str!"meters"))),
      .bindAs (str!"multiplied") (str!"Length") .dvec3 (.bin .mul (.bin .mul (.lit (str!"5.0")) (.unit (str!"meters"))) (.vec .dvec3 [(str!"1.0"), (str!"2.0"), (str!"3.0")])),
      .close (.call1 (.axis .x) (.var (str!"multiplied"))) (.bin .mul (.lit (str!"5.0")) (.unit (str!"meters"))),
      .close (.call1 (.axis .y) (.var (str!"multiplied"))) (.bin .mul (.lit (str!"10.0")) (.unit (str!"meters"))),
      .close (.call1 (.axis .z) (.var (str!"multiplied"))) (.bin .mul (.lit (str!"15.0")) (.unit (str!"meters")))]),
    ((str!"dvec3::mul_quantity_vec3"), .f64,
     [.bind (str!"multiplied") (.bin .mul (.bin .mul (.vec .dvec3 [(str!"1.0"), (str!"2.0"), (str!"3.0")]) (.unit (str!"meters_per_second"))) (.bin .mul (.lit (str!"5.0")) (.unit (str!"seconds")))),
      .close (.call1 (.axis .x) (.var (str!"multiplied"))) (.bin .mul (.lit (str!"5.0")) (.unit (str!"meters"))),
      .close (.call1 (.axis .y) (.var (str!"multiplied"))) (.bin .mul (.lit (str!"10.0")) (.unit (str!"meters"))),
      .close (.call1 (.axis .z) (.var (str!"multiplied"))) (.bin .mul (.lit (str!"15.0")) (.unit (str!"meters"))),
      .bind (str!"multiplied") (.bin .mul (.bin .mul (.lit (str!"5.0")) (.unit (str!"seconds"))) (.bin .mul (.vec .dvec3 [(str!"1.0"), (str!"2.0"), (str!"3.0")]) (.unit (str!"meters_per_second")))),
      .close (.call1 (.axis .x) (.var (str!"multiplied"))) (.bin .mul (.lit (str!"5.0")) (.unit (str!"meters"))),
      .close (.call1 (.axis .y) (.var (str!"multiplied"))) (.bin .mul (.lit (str!"10.0")) (.unit (str!"meters"))),
      .close (.call1 (.axis .z) (.var (str!"multiplied"))) (.bin .mul (.lit (str!"15.0")) (.unit (str!"meters")))]),
    ((str!"dvec3::div_vec3"), .f64,
     [.bind (str!"divided") (.bin .div (.vec .dvec3 [(str!"1.0"), (str!"2.0"), (str!"3.0")]) (.bin .mul (.lit (str!"0.2")) (.unit (str!"meters")))),
      .bind (str!"base") (.bin .div (.lit (str!"1.0")) (.bin .mul (.lit (str!"1.0")) (.unit (str!"meters")))),
      .close (.call1 (.axis .x) (.var (str!"divided"))) (.bin .mul (.lit (str!"5.0")) (.var (str!"base"))),
      .close (.call1 (.axis .y) (.var (str!"divided"))) (.bin .mul (.lit (str!"10.0")) (.var (str!"base"))),
      .close (.call1 (.axis .z) (.var (str!"divided"))) (.bin .mul (.lit (str!"15.0")) (.var (str!"base")))])] = some [] := by decide +kernel

/-- tests/unit_aliases/mod.rs for f32 -/
example : failing aliasSystem
   [((str!"f32::unit_aliases"), .f32,
     [.assert (.bin .partialEq (.bin .mul (.lit (str!"100.0")) (.unit (str!"meters"))) (.bin .mul (.lit (str!"100.0")) (.unit (str!"metres")))),
      .bind (str!"x") (.bin .mul (.lit (str!"100.0")) (.unit (str!"meters"))),
      .assert (.bin .partialEq (.call2 .valueIn (.var (str!"x")) (.unit (str!"meters"))) (.lit (str!"100.0"))),
      .assert (.bin .partialEq (.call2 .valueIn (.var (str!"x")) (.unit (str!"metres"))) (.lit (str!"100.0")))]),
    ((str!"f32::prefixed_aliases"), .f32,
     [.assert (.bin .partialEq (.bin .mul (.lit (str!"100.0")) (.unit (str!"centimeters"))) (.bin .mul (.lit (str!"100.0")) (.unit (str!"centimetres")))),
      .bind (str!"x") (.bin .mul (.lit (str!"100.0")) (.unit (str!"centimeters"))),
      .assert (.bin .partialEq (.call2 .valueIn (.var (str!"x")) (.unit (str!"meters"))) (.lit (str!"1.0"))),
      .assert (.bin .partialEq (.call2 .valueIn (.var (str!"x")) (.unit (str!"metres"))) (.lit (str!"1.0"))),
      .assert (.bin .partialEq (.call2 .valueIn (.var (str!"x")) (.unit (str!"centimeters"))) (.lit (str!"100.0"))),
      .assert (.bin .partialEq (.call2 .valueIn (.var (str!"x")) (.unit (str!"centimetres"))) (.lit (str!"100.0")))]),
    ((str!"f32::explicit_prefix"), .f32,
     [.assert (.bin .partialEq (.bin .mul (.lit (str!"100.0")) (.unit (str!"foo"))) (.bin .mul (.lit (str!"25.0")) (.unit (str!"meters")))),
      .assert (.bin .partialEq (.bin .mul (.lit (str!"100.0")) (.unit (str!"kilofoo"))) (.bin .mul (.lit (str!"25.0")) (.unit (str!"kilometers"))))])] = some [] := by decide +kernel

/-- tests/unit_aliases/mod.rs for f64 -/
example : failing aliasSystem
   [((str!"f64::unit_aliases"), .f64,
     [.assert (.bin .partialEq (.bin .mul (.lit (str!"100.0")) (.unit (str!"meters"))) (.bin .mul (.lit (str!"100.0")) (.unit (str!"metres")))),
      .bind (str!"x") (.bin .mul (.lit (str!"100.0")) (.unit (str!"meters"))),
      .assert (.bin .partialEq (.call2 .valueIn (.var (str!"x")) (.unit (str!"meters"))) (.lit (str!"100.0"))),
      .assert (.bin .partialEq (.call2 .valueIn (.var (str!"x")) (.unit (str!"metres"))) (.lit (str!"100.0")))]),
    ((str!"f64::prefixed_aliases"), .f64,
     [.assert (.bin .partialEq (.bin .mul (.lit (str!"100.0")) (.unit (str!"centimeters"))) (.bin .mul (.lit (str!"100.0")) (.unit (str!"centimetres")))),
      .bind (str!"x") (.bin .mul (.lit (str!"100.0")) (.unit (str!"centimeters"))),
      .assert (.bin .partialEq (.call2 .valueIn (.var (str!"x")) (.unit (str!"meters"))) (.lit (str!"1.0"))),
      .assert (.bin .partialEq (.call2 .valueIn (.var (str!"x")) (.unit (str!"metres"))) (.lit (str!"1.0"))),
      .assert (.bin .partialEq (.call2 .valueIn (.var (str!"x")) (.unit (str!"centimeters"))) (.lit (str!"100.0"))),
      .assert (.bin .partialEq (.call2 .valueIn (.var (str!"x")) (.unit (str!"centimetres"))) (.lit (str!"100.0")))]),
    ((str!"f64::explicit_prefix"), .f64,
     [.assert (.bin .partialEq (.bin .mul (.lit (str!"100.0")) (.unit (str!"foo"))) (.bin .mul (.lit (str!"25.0")) (.unit (str!"meters")))),
      .assert (.bin .partialEq (.bin .mul (.lit (str!"100.0")) (.unit (str!"kilofoo"))) (.bin .mul (.lit (str!"25.0")) (.unit (str!"kilometers"))))])] = some [] := by decide +kernel

/-- tests/rational_dimensions/mod.rs for f32 -/
example : failingRational rationalSystem
   [((str!"f32::rational_dimensions_allowed"), .f32,
     [.bind (str!"l") (.bin .mul (.lit (str!"2.0")) (.unit (str!"micrometers"))),
      .bind (str!"t") (.bin .mul (.lit (str!"5.0")) (.unit (str!"milliseconds"))),
      .bindAs (str!"sorptivity") (str!"Sorptivity") .f32 (.bin .div (.var (str!"l")) (.call1 .sqrt (.var (str!"t")))),
      .bind (str!"val") (.bin .div (.call1 .valueUnchecked (.var (str!"l"))) (.float (platform.sqrt .f32) (.call1 .valueUnchecked (.var (str!"t"))))),
      .close (.call1 .valueUnchecked (.var (str!"sorptivity"))) (.call1 .valueUnchecked (.bin .mul (.var (str!"val")) (.unit (str!"meters_per_sqrt_second"))))])] = some [] := by decide +kernel

/-- tests/rational_dimensions/mod.rs for f64 -/
example : failingRational rationalSystem
   [((str!"f64::rational_dimensions_allowed"), .f64,
     [.bind (str!"l") (.bin .mul (.lit (str!"2.0")) (.unit (str!"micrometers"))),
      .bind (str!"t") (.bin .mul (.lit (str!"5.0")) (.unit (str!"milliseconds"))),
      .bindAs (str!"sorptivity") (str!"Sorptivity") .f64 (.bin .div (.var (str!"l")) (.call1 .sqrt (.var (str!"t")))),
      .bind (str!"val") (.bin .div (.call1 .valueUnchecked (.var (str!"l"))) (.float (platform.sqrt .f64) (.call1 .valueUnchecked (.var (str!"t"))))),
      .close (.call1 .valueUnchecked (.var (str!"sorptivity"))) (.call1 .valueUnchecked (.bin .mul (.var (str!"val")) (.unit (str!"meters_per_sqrt_second"))))])] = some [] := by decide +kernel

end Diman.TestLang
