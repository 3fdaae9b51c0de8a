import Verif.Model.Messages
import Verif.Model.Lexer
import Verif.Spec.Shape
/-!
# The repository's own compile-fail tests, run by the model
Generated by tools/ui.py from crates/diman_unit_system/tests/compile_fail: each example is the verbatim argument of the macro call and the
expected errors, notes and helps of the `.stderr` file. They check the model, not the properties.
-/
namespace Diman

/-- The texts of the errors the model shows for a macro argument given by its lines (integer exponents; the texts do not depend on the
numbers, so they are forgotten). `none`: syntax error or panic. -/
def uiErrors (lines : List Str) : Option (List (Str × List (NoteLevel × Str))) :=
  match lex lines with
  | none => none
  | some ts => match macroMessages (E := Int) (M := Unit) (fun _ => ()) (fun _ => ()) ts with
    | .done l => some (l.map fun m => (m.text, m.notes))
    | _ => none

/-- The macro argument is a syntax error. -/
def uiSyntaxError (lines : List Str) : Bool :=
  match lex lines with
  | none => false
  | some ts => match macroMessages (E := Int) (M := Unit) (fun _ => ()) (fun _ => ()) ts with
    | .syntaxError => true
    | _ => false

/-- tests/compile_fail/dimension_annotation_violated_constant.rs:6-13 and .stderr -/
example : uiErrors
    [str!"    quantity_type Quantity;",
     str!"    dimension_type Dimension;",
     str!"    dimension Mass;",
     str!"    #[base(Mass)]",
     str!"    #[symbol(kg)]",
     str!"    unit kilograms: Mass;",
     str!"    unit grams = 1e-3 * kilograms;",
     str!"    constant SOLAR_MASS: Mass = 1.988477e30 * kilograms * grams;"] =
    some [(str!"Dimension mismatch in expression.", [(.help, str!"The annotation on the left-hand side has dimensions mass^1"), (.help, str!"but the expression on the right-hand side has dimensions mass^2")])] := by decide +kernel

/-- tests/compile_fail/dimension_annotation_violated_unit.rs:6-13 and .stderr -/
example : uiErrors
    [str!"    quantity_type Quantity;",
     str!"    dimension_type Dimension;",
     str!"    dimension Mass;",
     str!"    dimension Length;",
     str!"    #[base(Mass)]",
     str!"    #[symbol(kg)]",
     str!"    unit kilograms: Mass;",
     str!"    unit foo: Length = kilograms * kilograms;"] =
    some [(str!"Dimension mismatch in expression.", [(.help, str!"The annotation on the left-hand side has dimensions length^1 mass^0"), (.help, str!"but the expression on the right-hand side has dimensions length^0 mass^2")])] := by decide +kernel

/-- tests/compile_fail/dimension_annotation_with_unit_not_allowed.rs:6-12 and .stderr -/
example : uiErrors
    [str!"    quantity_type Quantity;",
     str!"    dimension_type Dimension;",
     str!"    dimension Mass;",
     str!"    #[base(Mass)]",
     str!"    #[symbol(kg)]",
     str!"    unit kilograms;",
     str!"    unit foo: kilograms = kilograms;"] =
    some [(str!"Type error in annotation: Expected dimension, found unit 'kilograms'.", [(.note, str!"Annotations can only be done using dimensions.")])] := by decide +kernel

/-- tests/compile_fail/dimension_definition_with_numeric_factor.rs:7-10 and .stderr -/
example : uiSyntaxError
    [str!"    quantity_type Quantity;",
     str!"    dimension_type Dimension;",
     str!"    dimension Dimensionless = 1;",
     str!"    dimension Length = 2.0 / Dimensionless;"] = true := by decide +kernel

/-- tests/compile_fail/resolver_dimension_in_constant_expression_not_allowed.rs:6-9 and .stderr -/
example : uiErrors
    [str!"    quantity_type Quantity;",
     str!"    dimension_type Dimension;",
     str!"    dimension Mass;",
     str!"    constant SOLAR_MASS: Mass = 1.988477e30 * Mass;"] =
    some [(str!"Constant SOLAR_MASS is defined in terms of the dimension Mass.", [(.note, str!"Constants can only be defined in terms of other constants and units.")])] := by decide +kernel

/-- tests/compile_fail/resolver_dimension_in_unit_expression_not_allowed.rs:6-9 and .stderr -/
example : uiErrors
    [str!"    quantity_type Quantity;",
     str!"    dimension_type Dimension;",
     str!"    dimension Mass;",
     str!"    unit kilograms = 5.0 * Mass;"] =
    some [(str!"Unit kilograms is defined in terms of the dimension Mass.", [(.note, str!"Units can only be defined in terms of other units and constants.")])] := by decide +kernel

/-- tests/compile_fail/resolver_duplicate_base_unit.rs:7-15 and .stderr -/
example : uiErrors
    [str!"    quantity_type Quantity;",
     str!"    dimension_type Dimension;",
     str!"    dimension Length;",
     str!"    #[base(Length)]",
     str!"    #[symbol(m)]",
     str!"    unit meters: Length;",
     str!"    #[base(Length)]",
     str!"    #[symbol(pc)]",
     str!"    unit parsec: Length;"] =
    some [(str!"'parsec' is defined to be a base unit for dimension 'Length', but there already is a base unit for this dimension.", [(.note, str!"There can only be one base unit per base dimension.")])] := by decide +kernel

/-- tests/compile_fail/resolver_duplicate_definition.rs:7-14 and .stderr -/
example : uiErrors
    [str!"    quantity_type Quantity;",
     str!"    dimension_type Dimension;",
     str!"    dimension Length;",
     str!"    #[base(Length)]",
     str!"    #[symbol(m)]",
     str!"    unit meters: Length;",
     str!"    unit foo: Length = 10.0 * meters;",
     str!"    unit foo: Length = 20.0 * meters;"] =
    some [(str!"Identifier \"foo\" defined multiple times.", [])] := by decide +kernel

/-- tests/compile_fail/resolver_duplicate_symbol.rs:7-15 and .stderr -/
example : uiErrors
    [str!"    quantity_type Quantity;",
     str!"    dimension_type Dimension;",
     str!"    dimension Length;",
     str!"    #[base(Length)]",
     str!"    #[prefix(milli)]",
     str!"    #[symbol(m)]",
     str!"    unit meters: Length;",
     str!"    #[symbol(mm)]",
     str!"    unit my_unit: Length = meters * 10.0;"] =
    some [(str!"Symbol 'mm' is used for multiple units.", [])] := by decide +kernel

/-- tests/compile_fail/resolver_partial_resolution.rs:7-15 and .stderr -/
example : uiErrors
    [str!"    quantity_type Quantity;",
     str!"    dimension_type Dimension;",
     str!"    dimension Length;",
     str!"    #[base(Length)]",
     str!"    #[symbol(m)]",
     str!"    unit meters;",
     str!"    unit kilometers = 1000.0 * meters;",
     str!"    unit millimeters = 0.001 * meters;",
     str!"    unit undefined = undefined;"] =
    some [(str!"Unresolvable definition \"undefined\".", [(.help, str!"Remove recursive definitions.")])] := by decide +kernel

/-- tests/compile_fail/resolver_prefixed_or_aliased_units_dont_generate_multiple_errors.rs:7-10 and .stderr -/
example : uiErrors
    [str!"    quantity_type Quantity;",
     str!"    dimension_type Dimension;",
     str!"    #[prefix(kilo)]",
     str!"    unit foo = undefined;"] =
    some [(str!"Undefined identifier \"undefined\".", [])] := by decide +kernel

/-- tests/compile_fail/resolver_undefined_identifier.rs:7-10 and .stderr -/
example : uiErrors
    [str!"    quantity_type Quantity;",
     str!"    dimension_type Dimension;",
     str!"    dimension Length;",
     str!"    unit kilometers = 1000.0 * meters;"] =
    some [(str!"Undefined identifier \"meters\".", [])] := by decide +kernel

/-- tests/compile_fail/resolver_units_in_dimension_expression_not_allowed.rs:6-12 and .stderr -/
example : uiErrors
    [str!"    quantity_type Quantity;",
     str!"    dimension_type Dimension;",
     str!"    dimension Mass;",
     str!"    #[base(Mass)]",
     str!"    #[symbol(kg)]",
     str!"    unit kilograms: Mass;",
     str!"    dimension Mass2 = kilograms;"] =
    some [(str!"Dimension Mass2 is defined in terms of the unit kilograms.", [(.note, str!"Dimensions can only be defined in terms of other dimensions.")])] := by decide +kernel

/-- tests/compile_fail/resolver_unresolvable.rs:7-11 and .stderr -/
example : uiErrors
    [str!"    quantity_type Quantity;",
     str!"    dimension_type Dimension;",
     str!"    dimension Length;",
     str!"    unit meters = 0.001 * kilometers;",
     str!"    unit kilometers = 1000.0 * meters;"] =
    some [(str!"Unresolvable definition \"meters\".", [(.help, str!"Remove recursive definitions.")]),
      (str!"Unresolvable definition \"kilometers\".", [(.help, str!"Remove recursive definitions.")])] := by decide +kernel

/-- tests/compile_fail/example_system/mod.rs:4-33: accepted without an error. -/
example : uiErrors
    [str!"    quantity_type Quantity;",
     str!"    dimension_type Dimension;",
     str!"    dimension Length;",
     str!"    dimension Time;",
     str!"    dimension Mass;",
     str!"    dimension Temperature;",
     str!"    dimension Dimensionless = 1;",
     str!"    unit dimensionless = 1;",
     str!"    #[base(Length)]",
     str!"    #[symbol(m)]",
     str!"    unit meters: Length;",
     str!"    unit kilometers = 1000.0 * meters;",
     str!"    #[base(Time)]",
     str!"    #[symbol(s)]",
     str!"    unit seconds: Time;",
     str!"    dimension Velocity = Length / Time;",
     str!"    unit meters_per_second = meters / seconds;",
     str!"    dimension Energy = Mass * Velocity * Velocity;",
     str!"    unit joules: Energy = kilograms * meters_per_second^2;",
     str!"    #[base(Mass)]",
     str!"    #[symbol(kg)]",
     str!"    unit kilograms: Mass;",
     str!"    unit grams = 1e-3 * kilograms;",
     str!"    dimension Area = Length * Length;",
     str!"    dimension Volume = Length * Length * Length;",
     str!"    dimension Force = Energy / Length;",
     str!"    unit newtons = joules / meters;",
     str!"    constant SOLAR_MASS = 1.988477e30 * kilograms;",
     str!"    constant SOLAR_MASS_GRAMS = 1.988477e33 * grams;",
     str!"    constant SOLAR_MASS_AWKWARD = 1.988477e30 * kilograms / (seconds / seconds);"] = some [] := by decide +kernel

end Diman
