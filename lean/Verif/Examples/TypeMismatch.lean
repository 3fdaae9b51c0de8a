import Verif.Examples.TestLang
/-!
# The repository's type-mismatch tests
The compile-fail tests type_mismatch_*.rs are rejected because a variable is declared with a type that its initial value does not have. The
`.stderr` files state the type of the value; here the model computes it, over the verbatim text of the tests' unit system. They check the model,
not the properties.
-/
namespace Diman.TestLang

/-- tests/compile_fail/example_system/mod.rs:4-33 -/
def uiSystem : List Str :=
    [(str!"    quantity_type Quantity;"),
     (str!"    dimension_type Dimension;"),
     (str!"    dimension Length;"),
     (str!"    dimension Time;"),
     (str!"    dimension Mass;"),
     (str!"    dimension Temperature;"),
     (str!"    dimension Dimensionless = 1;"),
     (str!"    unit dimensionless = 1;"),
     (str!"    #[base(Length)]"),
     (str!"    #[symbol(m)]"),
     (str!"    unit meters: Length;"),
     (str!"    unit kilometers = 1000.0 * meters;"),
     (str!"    #[base(Time)]"),
     (str!"    #[symbol(s)]"),
     (str!"    unit seconds: Time;"),
     (str!"    dimension Velocity = Length / Time;"),
     (str!"    unit meters_per_second = meters / seconds;"),
     (str!"    dimension Energy = Mass * Velocity * Velocity;"),
     (str!"    unit joules: Energy = kilograms * meters_per_second^2;"),
     (str!"    #[base(Mass)]"),
     (str!"    #[symbol(kg)]"),
     (str!"    unit kilograms: Mass;"),
     (str!"    unit grams = 1e-3 * kilograms;"),
     (str!"    dimension Area = Length * Length;"),
     (str!"    dimension Volume = Length * Length * Length;"),
     (str!"    dimension Force = Energy / Length;"),
     (str!"    unit newtons = joules / meters;"),
     (str!"    constant SOLAR_MASS = 1.988477e30 * kilograms;"),
     (str!"    constant SOLAR_MASS_GRAMS = 1.988477e33 * grams;"),
     (str!"    constant SOLAR_MASS_AWKWARD = 1.988477e30 * kilograms / (seconds / seconds);")]

/-- The fields of the struct `Dimension` and the types of expressions over the unit system, `none` for one that does not compile. -/
def typesOf (lines : List Str) (es : List (TExpr Int)) : Option (List Str × List (Option (Ty Int))) :=
  letI := magOpsInt platform.lib; letI := softPrims platform; letI := softText coreText
  match lex lines with
  | none => none
  | some ts => match unitSystem (E := Int) Number.magnitude Prefix.factor ts with
    | .done (defs, []) => some (defs.baseDimensions, es.map fun e => (e.eval defs .f64 []).map TVal.ty)
    | _ => none

/-- `meters.new(1.0)`, `dimensionless.new(1.0)` -/
def newMeters : TExpr Int := .call2 .unitNew (.unit (str!"meters")) (.lit (str!"1.0"))
def newDimensionless : TExpr Int := .call2 .unitNew (.unit (str!"dimensionless")) (.lit (str!"1.0"))

/-- type_mismatch_dimension.stderr: expected `Dimension { length: 0, time: 1, mass: 0, temperature: 0 }`, found
`Dimension { length: 1, time: 0, mass: 0, temperature: 0 }`; then the other tests in the order add_type_quantity, div_quantity,
div_quantity_type, div_type_quantity, function_call, mul_quantity, mul_quantity_type, mul_type_quantity, all of which expect `()` and
find `Quantity<f64, Dimension>`. -/
example : typesOf uiSystem [newMeters, .bin .add (.lit (str!"1.0")) newDimensionless, .bin .div newMeters newMeters,
      .bin .div (.lit (str!"1.0")) newDimensionless, .bin .div newDimensionless (.lit (str!"1.0")), .call1 .abs newMeters,
      .bin .mul newMeters newMeters, .bin .mul (.lit (str!"1.0")) newDimensionless, .bin .mul newDimensionless (.lit (str!"1.0"))] =
    some ([str!"length", str!"time", str!"mass", str!"temperature"],
      [some (.quantity .f64 [1, 0, 0, 0]), some (.quantity .f64 [0, 0, 0, 0]), some (.quantity .f64 [0, 0, 0, 0]),
       some (.quantity .f64 [0, 0, 0, 0]), some (.quantity .f64 [0, 0, 0, 0]), some (.quantity .f64 [1, 0, 0, 0]),
       some (.quantity .f64 [2, 0, 0, 0]), some (.quantity .f64 [0, 0, 0, 0]), some (.quantity .f64 [0, 0, 0, 0])]) := by decide +kernel

/-- type_mismatch_dimension.rs: `let x: Time<f64> = meters.new(1.0);` does not compile, `let x: Length<f64> = ...` does. -/
example : failing uiSystem [(str!"time", .f64, [.bindAs (str!"x") (str!"Time") .f64 newMeters]),
    (str!"length", .f64, [.bindAs (str!"x") (str!"Length") .f64 newMeters])] = some [str!"time"] := by decide +kernel

end Diman.TestLang
