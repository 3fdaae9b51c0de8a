#!/usr/bin/env python3
"""Single source of properties.jsonl; run to regenerate it."""
import json, os
P = []
def p(id, title, statement, quantifier, why, anchors):
    P.append(dict(id=id, title=title, statement=statement, quantifier=quantifier,
                  why_tests_cant=why, anchors=anchors))
LIB="crates/diman_lib/src/"; US="crates/diman_unit_system/src/"

p("C01","Rational exponent arithmetic is exact or refused",
  "With rational dimensions, whenever adding, subtracting, negating, multiplying or dividing two exponents returns a value, that value denotes exactly the rational sum, difference, negation, product or quotient; if an intermediate does not fit in i64 or a division by zero occurs, the operation is refused (panic / compile error) and no wrong exponent is ever produced.",
  "all pairs of i64 numerators/denominators with non-zero denominators",
  "the input space is 2^256; overflow boundaries and gcd behaviour depend on the particular values",
  [LIB+"ratio.rs: gcd, Ratio::{new,add,sub,neg,mul,div,inv}, impl Mul/AddAssign/Neg"])
p("C02","Equal rational exponents are the same exponent",
  "Two exponents that denote the same rational number compare equal, so two dimensions that are mathematically equal are the same type; every exponent is kept in lowest terms.",
  "all exponents constructible from literals n/d and from any sequence of dimension operations",
  "an equality law over all pairs of computation histories",
  [LIB+"ratio.rs: Ratio, derive(PartialEq), Ratio::new, Ratio::inv", US+"parse/mod.rs: read_exponent"])
p("C03","A magnitude stores the number it was given",
  "Storing an f64 conversion factor as a unit's magnitude and reading it back as f64 returns the same number.",
  "all 2^64 f64 bit patterns",
  "2^64 inputs including subnormals, infinities, signed zeros and NaN; the repository's unit test samples about 10^4",
  [LIB+"magnitude.rs: integer_decode_f64, Magnitude::{from_f64,into_f64}"])
p("C04","Definition expressions parse left-associatively with ^ binding tightest",
  "Writing out any definition expression (identifiers, literals, *, /, juxtaposition, ^, parentheses) and parsing it gives back exactly that expression, with * and / left associative and ^ applying to a single identifier or literal.",
  "all expressions of any length and nesting depth",
  "unbounded nesting and length",
  [US+"parse/mod.rs: impl Parse for Expr, Factor, Operator, Exponent", US+"types/expression.rs"])
p("C05","The expression parser accepts exactly the documented grammar",
  "A token sequence is accepted as a definition's right-hand side if and only if it is a sentence of the grammar factor ((* | / | juxtaposed identifier) factor)*; nothing else is accepted and the accepted reading is unique.",
  "all token-tree sequences",
  "acceptance and rejection over an infinite language",
  [US+"parse/mod.rs: impl Parse for Expr, Factor, Operator"])
p("C06","An expression's dimension is the algebra of its parts' exponents",
  "The dimension computed for a definition has, for every base dimension, exactly the exponent obtained by adding exponents over products, subtracting over quotients and multiplying under powers.",
  "all expressions and all assignments of dimensions to the identifiers in them",
  "unbounded expressions, arbitrary operand dimensions",
  [US+"dimension_math.rs: BaseDimensions Mul/Div/inv/pow", US+"types/expression.rs: Expr::eval"])
p("C07","Every resolved definition satisfies its own equation",
  "In a unit system that is accepted without errors, the dimension and magnitude given to every dimension, unit and constant equal the evaluation of its right-hand side using the values given to the identifiers it mentions.",
  "all unit_system! inputs, any number of definitions, any dependency structure",
  "arbitrary dependency graphs",
  [US+"resolve/ident_storage.rs: IdentStorage::{resolve,resolve_dimensions,is_resolvable}"])
p("C08","Definition order does not matter",
  "Reordering the statements of an accepted unit system changes neither which names are defined nor the dimension and magnitude of any of them, nor whether it is accepted.",
  "all unit systems and all permutations of their definitions",
  "factorially many permutations of unboundedly many definitions",
  [US+"resolve/ident_storage.rs: IdentStorage::resolve"])
p("C09","Exactly the recursive definitions are rejected as unresolvable, and resolution always ends",
  "Resolution terminates on every input and can panic only because an exponent computation overflows i64; with distinct names, a definition is generated if and only if it does not depend, directly or indirectly, on a cycle or on an undefined name, and it is reported unresolvable if and only if it does so depend although its own statement mentions only defined names (a definition that itself mentions an undefined name is reported for that instead).",
  "all definition lists, including cyclic and partly undefined ones",
  "arbitrary graphs; termination is not a testable property",
  [US+"resolve/ident_storage.rs: IdentStorage::{resolve,is_resolvable,resolve_dimensions}"])
p("C10","Nothing is dropped silently",
  "If the macro reports no error, then every dimension, every unit (including every prefixed and aliased one) and every constant of the input appears in the generated code, exactly once.",
  "all unit_system! inputs",
  "must hold for every combination of definitions and filters",
  [US+"resolve/mod.rs: UnresolvedDefs::resolve", US+"resolve/ident_storage.rs: filter_*, get_items"])
p("C11","Duplicate names and duplicate symbols are always reported, and only those",
  "A name defined more than once (including collisions created by prefixes or aliases) always yields an error, likewise a symbol used by more than one unit; no error of these kinds is produced when names and symbols are distinct.",
  "all unit_system! inputs",
  "collisions can arise from any pair of prefixed/aliased units",
  [US+"resolve/ident_storage.rs: filter_multiply_defined", US+"resolve/mod.rs: check_multiply_defined_symbols"])
p("C12","Definitions only mention the allowed kinds",
  "In an accepted unit system dimensions are defined only from dimensions, units and constants only from units and constants, and base units only from a dimension; a violation always yields an error.",
  "all unit_system! inputs",
  "every pair of kinds in arbitrary surrounding definitions",
  [US+"resolve/ident_storage.rs: Kind::kind_is_allowed_in_definition, check_kinds_in_definitions"])
p("C13","Base units are the unit of their base dimension",
  "In an accepted system each base dimension has at most one base unit, every base unit belongs to a base dimension, has magnitude exactly 1, and has that dimension to the power one and no other.",
  "all unit_system! inputs",
  "quantifies over all definition lists",
  [US+"resolve/mod.rs: check_invalid_base_units, get_base_dimensions", US+"resolve/ident_storage.rs: From<UnitEntry>, From<DimensionEntry>"])
p("C14","Dimension annotations are enforced",
  "A unit or constant annotated with a dimension is accepted if and only if its expression has exactly that dimension; annotating with something that is not a dimension, or is undefined, is an error.",
  "all annotated definitions in all unit systems",
  "all pairs of annotation and expression dimensions",
  [US+"resolve/ident_storage.rs: check_type_annotations", US+"dimension_math.rs: impl PartialEq for BaseDimensions"])
p("C15","Prefixes and aliases generate exactly the promised units",
  "A unit with prefixes p1..pm and aliases a1..an generates exactly the (m+1)(n+1) units named prefix+name for every prefix (or none) and every name or alias; the prefixed symbol is attached to the non-aliased ones only; each has the dimension of the original and magnitude prefix-factor times the original's.",
  "all unit templates: any number of prefixes and aliases, any definition",
  "product over arbitrary lists of prefixes and aliases",
  [US+"types/mod.rs: UnitTemplate::{expand,expand_prefix_and_alias,format_name,format_symbol,get_definition}"])
p("C16","metric_prefixes generates all 16 SI prefixes from atto to exa except the skipped ones, with the right factor and symbol",
  "The attribute yields every SI prefix from atto to exa, minus those listed in skip, each once; every prefix's factor is the double nearest its power of ten and its names and symbols are pairwise distinct.",
  "all skip lists",
  "all subsets/sequences of skipped prefixes",
  [US+"types/prefixes.rs"])
p("C17","Dimension arithmetic forms the group of exponent vectors",
  "Dimension multiplication is associative and commutative with the dimensionless dimension as identity and inversion as inverse; raising to an integer power is repeated multiplication; square and cube roots are accepted exactly when every exponent is divisible (integer dimensions) and undo squaring and cubing.",
  "all dimensions over any number of base dimensions and all i32 powers, within i64 range",
  "algebraic laws over all exponent vectors",
  [US+"codegen/dimension_type.rs: dimension_methods_impl"])
p("C18","The generated type of a dimension, unit or constant carries exactly its resolved exponents",
  "The Dimension value written into the generated code has, for every base dimension, the exponent the resolver computed and zero where none was; two definitions have the same type if and only if they have the same exponents.",
  "all accepted unit systems and all definitions in them",
  "all exponent maps over all base dimension lists",
  [US+"codegen/dimensions.rs: get_dimension_expr", US+"codegen/dimension_type.rs: get_base_dimension_entry, zero_entry"])
p("C19","Distinct base dimensions get distinct fields",
  "Two base dimensions with different UpperCamelCase names never collapse into one field of the generated dimension type.",
  "all pairs of CamelCase identifiers of any length",
  "injectivity over an infinite set of names",
  [US+"types/base_dimension.rs: str_to_snakecase"])
p("C20","Operators between quantities are dimension-checked",
  "For every operator implementation that is generated, addition, subtraction, compound assignment and comparison exist only between operands of equal dimension (a bare number counting as dimensionless), multiplication gives the product and division the quotient dimension, and multiplying or dividing in place only by dimensionless operands. The operators that exist are exactly those of a fixed table by operand types, dimensions and the way operands are passed; no operator application is ambiguous between two implementations and its outcome is unique.",
  "all generated operator impls, all operand dimensions, all storage types",
  "all pairs of dimensions and every impl in the table",
  [US+"codegen/num_traits/operator_trait.rs: iter_numeric_traits, dimension_types, output_quantity_dimension"])
p("C21","Results do not depend on the choice of base units",
  "Any program built from the checked API (unit creation, arithmetic, comparison, roots, powers, dimensionless functions, vectors, sums, reading out in a unit of the same dimension) commutes with changing the scale of the base units: every quantity scales by its dimension and every plain number, boolean and dimensionless result is unchanged.",
  "all well-typed programs of any size, all inputs, all changes of base units",
  "parametricity over all programs and all scalings",
  [US+"codegen/unit_type.rs", US+"codegen/quantity_type.rs", US+"codegen/num_traits/", US+"codegen/float_methods.rs", US+"codegen/vector_methods.rs"])
p("C22","Creating a quantity in a unit and reading it back in that unit returns the number",
  "x * unit, unit * x and unit.new(x) are the same quantity; reading it back with value_in(unit) returns x exactly in exact arithmetic and, in f64 without overflow or underflow, x up to two correctly rounded operations.",
  "all numbers x and all units with non-zero magnitude",
  "all pairs of doubles",
  [US+"codegen/unit_type.rs", US+"codegen/quantity_type.rs: value_in", LIB+"magnitude.rs"])
p("C23","Composite units behave as the product or quotient of their parts",
  "Multiplying or dividing units with units or quantities gives the quantity whose value is the product or quotient of the operands' values and whose dimension is the product or quotient of their dimensions.",
  "all units, composite units and quantities",
  "all operand values and dimensions",
  [US+"codegen/unit_type.rs: gen_unit_trait_impls"])
p("C24","A quantity can only be read out in a unit of its own dimension",
  "value_in(unit) is available only for units whose dimension equals the dimension of the quantity.",
  "all quantities and all units",
  "a statement about every pair of dimensions",
  [US+"codegen/quantity_type.rs: value_in", US+"codegen/unit_type.rs: From<Unit> for Magnitude"])
p("C25","Powers and roots are consistent",
  "squared, cubed and powi::<N> give the dimension D^2, D^3, D^N and the value's power; sqrt(q.squared()) and cbrt(q.cubed()) have the dimension of q, and recover it (in exact arithmetic, up to sign for sqrt); a root of a dimension that is not divisible is rejected at compile time when dimensions are integers.",
  "all quantities, dimensions and integer powers",
  "all dimensions and exponents",
  [US+"codegen/float_methods.rs: specific_float_methods", US+"codegen/dimension_type.rs"])
p("C26","Debug output never panics and names exactly the quantity's dimension",
  "Formatting any quantity of an accepted unit system with {:?} succeeds and prints the stored value followed by a unit expression of magnitude one that denotes exactly the quantity's dimension.",
  "all accepted unit systems, all dimensions, all values",
  "all systems and all exponent vectors",
  [US+"codegen/debug_trait.rs", LIB+"runtime_unit_storage.rs"])
p("C27","Serialising and deserialising a quantity returns the same quantity",
  "Deserialising the string a float quantity serialises to yields the same quantity, for every dimension.",
  "all accepted unit systems with serde, all dimensions, all values whose decimal text round-trips",
  "all dimensions, all symbols and all values",
  [US+"codegen/serde.rs", US+"codegen/debug_trait.rs"])
p("C28","Deserialisation never produces a quantity of the wrong dimension",
  "Deserialising a string succeeds only if it is a number followed by known unit symbols with integer powers whose combined dimension is the requested one, and then the value is the number times the product of the units' magnitudes to those powers; every other string is rejected with an error, never a panic.",
  "all input strings, all target dimensions, all unit systems",
  "all strings",
  [US+"codegen/serde.rs: read_unit_str, read_single_unit_str, get_quantity_if_dimensions_match, visit_str"])
p("C29","Bare numbers deserialise only to dimensionless quantities",
  "An integer or float without a unit is accepted if and only if the target quantity is dimensionless, and then yields that number.",
  "all numbers and all target dimensions",
  "all dimensions and numbers",
  [US+"codegen/serde.rs: visit_i64, visit_u64, visit_f64"])
p("C30","Vector quantities round-trip through serde and wrong component counts are rejected",
  "Deserialising the string a vector quantity serialises to returns the same vector quantity; a bracketed list whose number of components differs from the vector's dimension is rejected.",
  "all vector quantities, all dimensions, all strings",
  "all strings and values",
  [US+"codegen/serde.rs: serde_vector_impl"])
p("C31","Vector accessors, constructors and products are componentwise and dimension-correct",
  "new(x,y,z) has components x, y, z; setting a component changes that component only; new_x/y/z are the scaled axis vectors; dot, length, distance, distance_squared and normalize have dimensions D*DR, D, D, D^2 and none.",
  "all component quantities and dimensions",
  "all values and dimensions",
  [US+"codegen/vector_methods.rs"])
p("C32","A quantity behaves like its storage type",
  "Every arithmetic, comparison, compound-assignment, negation, sum, abs, min, max, clamp and dimensionless float method on quantities yields the quantity wrapping the result of the same operation on the stored values, operands in the same order.",
  "all generated methods, all operand forms (value, reference), all stored values",
  "all impls and all values",
  [US+"codegen/num_traits/operator_trait.rs: fn_return_expr", US+"codegen/num_traits/mod.rs", US+"codegen/generic_methods.rs", US+"codegen/float_methods.rs"])
p("C33","Only dimensionless quantities convert to and from bare numbers",
  "value(), value_ref, Deref, From<S>, adding or comparing with a bare number, and all transcendental functions are available only at the dimensionless dimension; every other bridge is named *_unchecked.",
  "all API entry points and all dimensions",
  "all dimensions",
  [US+"codegen/quantity_type.rs", US+"codegen/float_methods.rs", US+"codegen/num_traits/mod.rs: gen_from_impl"])
p("C34","MPI and HDF5 descriptors describe the stored data",
  "For every storage type the MPI datatype and HDF5 type descriptor declare exactly the number and width of floats that the storage type holds, independently of the dimension.",
  "all storage types and all dimensions",
  "a layout statement for every storage type and every dimension",
  [US+"codegen/mpi.rs", US+"codegen/hdf5.rs", US+"codegen/storage_types.rs"])
p("C35","Random quantities lie between the given bounds",
  "Sampling a uniform quantity between low and high yields a quantity of the same dimension inside the requested range, for half-open and inclusive ranges; with rand 0.8.5 this holds without any assumption on the generator, and a draw fails (panics) exactly if the range is empty, a bound is NaN, or the width of the range overflows.",
  "all bounds (any floats), all generators and generator states, both float types",
  "all random streams",
  [US+"codegen/rand.rs"])
p("C36","The SI module is consistent",
  "The shipped SI definitions are accepted without any error, every annotated SI unit has exactly its annotated dimension, and all SI unit names and symbols are distinct.",
  "all definitions of src/si.rs including every prefixed and aliased unit",
  "more than a thousand generated units; the compiler run checks annotations only up to the annotation's own fields",
  ["src/si.rs", US+"resolve/mod.rs"])
p("C37","Malformed unit statements are rejected",
  "A unit statement is accepted only if it has an expression and no base attribute, or exactly one base attribute and no expression; repeated symbol or metric_prefixes attributes, attributes without required arguments and unused attributes are rejected.",
  "all attribute lists and unit statements",
  "all attribute sequences",
  [US+"parse/mod.rs: impl ParseWithAttributes for UnitTemplate", US+"parse/attributes.rs"])
p("C38","Exactly one quantity type and one dimension type must be named",
  "The macro reports an error unless exactly one quantity_type and exactly one dimension_type statement are given, and uses the given name.",
  "all statement lists",
  "all statement lists",
  [US+"resolve/mod.rs: get_single_ident"])
p("C39","Undefined identifiers are reported by name, and only they",
  "Every identifier used in a definition but defined nowhere is reported as undefined, and no defined identifier is ever reported as undefined.",
  "all unit_system! inputs",
  "all definition graphs",
  [US+"resolve/ident_storage.rs: filter_undefined"])
p("C40","Generated code is deterministic",
  "The generated definitions do not depend on hash map iteration order.",
  "all inputs and all hash iteration orders",
  "all iteration orders",
  [US+"resolve/ident_storage.rs: BTreeMap resolved, get_items", US+"dimension_math.rs: HashMap fields", US+"codegen/dimensions.rs"])
p("C41","Dimension definitions contain no numeric factor other than one",
  "A dimension definition containing a literal other than 1 is rejected; literals 1 and 1.0 are accepted and contribute no dimension.",
  "all dimension expressions",
  "all expressions and literals",
  [US+"parse/mod.rs: Number::as_one, impl Parse for DimensionFactor", US+"resolve/ident_storage.rs: From<DimensionEntry>"])
p("C42","The unit_system! statement list is read completely and faithfully",
  "Parsing the tokens of a printed statement list yields exactly those statements, each kind in source order, with nothing lost or invented.",
  "all statement lists of any length",
  "unbounded inputs",
  [US+"parse/mod.rs: impl Parse for UnresolvedTemplates, Entry"])
p("C43","Sums of quantities equal the sum of the stored values in iteration order",
  "Summing an iterator of quantities starts at the storage type's default and adds the items left to right; summing no items gives that default.",
  "all iterators of quantities of any length",
  "unbounded sequences",
  [US+"codegen/num_traits/mod.rs: gen_sum_impl"])
p("C44","Magnitude products and quotients are the correctly rounded products and quotients",
  "Combining units multiplies and divides their conversion factors exactly as f64 multiplication and division do, with relative error at most 2^-53 and multiplying by 1 changes nothing, for all factors away from overflow and underflow. The operators between a factor and an f64 or f32 compute with the stored number (rounded to f32 for f32).",
  "all pairs of magnitudes",
  "2^128 pairs of doubles",
  [LIB+"magnitude.rs: impl Mul/Div for Magnitude", US+"dimension_math.rs: DimensionsAndMagnitude Mul/Div"])
p("C45","Reported errors and dimensions do not depend on numeric factors",
  "Two unit systems that differ only in their numeric literals (or in how numbers are rounded) give the same syntax errors, the same panics, the same reported errors, and the same generated names, symbols and dimensions; only conversion factors differ.",
  "all pairs of unit systems equal up to literals, all ways to read numbers",
  "all inputs and all number representations",
  [US+"resolve/mod.rs", US+"resolve/ident_storage.rs", US+"dimension_math.rs", US+"types/mod.rs: expand"])
p("C46","The units of the SI module are the SI units",
  "Every unit the si module exports, under each of its names and with each of its declared prefixes, has the dimension, symbol and value of the SI tables; every dimension has the exponents of the tables; nothing in the tables is missing. With the doubles the macro computes, each factor is within a relative 17/2^52 of the table's value, also with rational-dimensions (34/2^52 without the std feature).",
  "all unit names, prefixes and dimensions declared in src/si.rs",
  "hundreds of constants, each the end of a chain of rounded operations; a test samples a few",
  ["src/si.rs", US+"resolve/mod.rs", LIB+"magnitude.rs", US+"types/prefixes.rs"])
p("C47","Conversion factors are accurate for every unit system",
  "For every input of unit_system!, each unit and constant whose computation stays in range has a conversion factor within a relative n/2^52 of the exact product/quotient/power of its definition, n being the number of roundings in the definition and those it rests on; an f32 factor adds one rounding to 24 bits. With rational-dimensions the same holds for fractional powers, if the platform's powf is accurate to 3/4 ulp, counting the rounding of the fraction itself. Without the std feature a power counts twice.",
  "all inputs of the macro, all units and constants",
  "all expressions of any depth over all doubles",
  [US+"dimension_math.rs", LIB+"magnitude.rs", US+"resolve/mod.rs"])
p("C48","Every problem is shown by name, and a dimension mismatch shows both sides completely",
  "A unit system is rejected exactly if at least one error message is shown. Undefined identifiers, recursive definitions, duplicate names and duplicate symbols are shown by name in the message text, exactly for the identifiers concerned. A dimension mismatch lists for both sides the same base dimensions (all those occurring on either side, alphabetically, independent of hash order) with each side's exponents, so the two texts differ exactly if the dimensions differ.",
  "all unit systems, all identifiers, all enumeration orders",
  "all inputs; trybuild tests cover a dozen fixed inputs and one hash seed each",
  [US+"resolve/error.rs: Emit impls, format_lhs_rhs_dimensions", US+"resolve/mod.rs: emit_errors, resolve"])
p("C49","The generated names resolve, and the public paths stand for the definitions",
  "When the macro reports no error, the generated code obeys Rust's scoping rules (nothing bound twice, every import and name resolves to what is meant, no keyword as a name) exactly if the type names are Quantity and Dimension, no statement uses a reserved name (dimensions Dimension, Quantity, Exponent; units and constants Unit), and the snake-case field names of base dimensions are distinct non-keywords; this holds in every feature combination. Then dimensions::X, units::x and constants::C stand for exactly the definitions of the system with their exponents and magnitudes. (The documented freedom to choose the type names is refuted: C49_other_names.)",
  "all accepted unit systems, all feature combinations, all paths",
  "all sets of names a user may choose",
  [US+"codegen/mod.rs: code_gen", US+"codegen/units_and_constants.rs", US+"codegen/dimensions.rs", US+"codegen/unit_type.rs", US+"codegen/serde.rs", US+"codegen/rand.rs", "src/lib.rs: documentation of quantity_type, dimension_type"])
p("C50","rational-dimensions supports a superset of the default build",
  "Every unit system the macro accepts without the feature rational-dimensions is accepted with it, and means the same: same errors (or panic), same dimensions, units and constants in the same order with each integer exponent n as n/1, same types in the generated code, same conversion factors when the powers agree, same printed and parsed text; every operator and every generated function of the default build exists between the corresponding types, with the corresponding result type and value, provided no exponent is i64::MIN. The converse fails: the repository's Sorptivity system is a syntax error without the feature.",
  "all macro inputs, all arithmetics of conversion factors, all storage types, dimensions, operators, functions and texts",
  "two builds with different exponent types; tests run each test suite in one build",
  ["src/lib.rs: documentation of rational dimensions", "crates/diman_lib/src/ratio.rs", US+"types/mod.rs: Exponent", US+"parse/mod.rs: parse_int_exponent_expr", US+"codegen/dimension_type.rs", "tests/rational_dimensions/mod.rs"])
p("C51","Calculations with quantities are as accurate as their error books",
  "For every calculation built from the operators, functions, units and constants of a unit system, running it in binary64 or binary32 gives a finite result that differs from the result over the real numbers by no more than the error obtained by the standard rounding-error rules (half a unit in the last place per operation, propagated), whenever those rules never leave the range of the format; the factors of the units are the rounded ones of the generated code. In particular value_in after multiplication by a unit has relative error at most (1+a)(1+u)^2/(1-b)-1, converting between any two SI units is within 36/2^52 (std), 71/2^52 (no_std) and 5/2^24 (f32) of the exact conversion, and the sum of N quantities is within 2N(u*sum|x|+eta).",
  "all calculations (any composition of operators and functions), all inputs, all accepted unit systems, both float formats, std and no_std",
  "infinitely many calculations and inputs; a test compares a few results within a tolerance",
  [US+"codegen/generic_methods.rs", US+"codegen/float_methods.rs", US+"codegen/quantity_type.rs", US+"codegen/unit_type.rs", "crates/diman_lib/src/magnitude.rs", "src/si.rs"])
p("C52","Unit systems can be extended and cut down without changing what remains",
  "Adding statements to an accepted unit system leaves every old dimension, unit and constant with the same name, exponents, conversion factor (bit for bit) and symbol. Deleting statements that nothing remaining mentions keeps the system accepted. A new dimension, unit (with all its prefixes and aliases), base unit or constant with free names and symbols that mentions only what is defined, has the dimension it is annotated with, and whose exponents do not overflow, is accepted, has the exponents and the factor of its definition, and changes nothing else.",
  "all accepted unit systems, all sets of added or deleted statements, any exponent type and conversion-factor arithmetic",
  "ranges over all pairs of unit systems; tests use a handful of fixed systems",
  [US+"resolve/mod.rs", US+"resolve/ident_storage.rs", US+"types/expression.rs", US+"prefixes.rs"])
p("C53","Float quantities are ordered like the numbers they denote, and conversions respect the order",
  "In binary32/binary64 arithmetic with rounding, infinities and NaN: comparing quantities compares the numbers they store (NaN is unordered, 0 == -0); min and max return the smaller and the greater operand; clamp panics exactly if not lo <= hi and otherwise returns the nearest number of the interval; sums and differences are monotone in each argument, and multiplying with or dividing by a positive finite quantity is monotone and never gives NaN; creating quantities in a unit and reading them out in a unit with positive finite factor never makes two numbers change places, for every unit of the SI module in particular; sums and products commute bit for bit, and x - x is +0.",
  "all floats of both formats (including infinities, zeros, subnormals, NaN), all operators of the generated table, all units",
  "2^128 pairs of doubles and all unit systems; rounding could break monotonicity for a few pairs only",
  [US+"codegen/quantity_type.rs", US+"codegen/float_methods.rs", US+"codegen/unit_type.rs", "crates/diman_lib/src/magnitude.rs"])
p("C54","Writing a name out, naming a part, and redundant parentheses change nothing",
  "Replacing names in the definitions of an accepted unit system by their own definitions in parentheses gives an accepted unit system with exactly the same dimensions, units and constants (exponents and conversion factors bit for bit). Conversely, where a definition of an accepted unit system contains, in parentheses, exactly what defines some name, the name can be written instead, with the same result; no cycle can arise. Parentheses that do not change the grouping change nothing, and do not change whether the system is accepted.",
  "all unit systems, all choices of names to write out (any number of them, in any statements, nested in any expressions), integer and rational exponents, any arithmetic of conversion factors",
  "there are infinitely many unit systems and expressions; a test shows one pair",
  [US+"types/expression.rs:Expr::eval", US+"resolve/ident_storage.rs:resolve", US+"resolve/mod.rs"])
p("C55","Cargo features are additive",
  "The features that are on are the requested ones and those the feature table leads to; a storage type is supported exactly if its feature is on, and a vector type brings its component type. Switching on more features takes nothing away: every call of a generated function and every operator that type-checks keeps its type (what a call in method syntax on a dimensionless quantity refers to can change, see C68). Roots and the dimensionless functions (ln, sin, ...) exist exactly with std or num-traits-libm, everything else depends on the storage types only; calls and operators on values of supported types give values of supported types. rational-dimensions without std and without num-traits-libm is refused, and nothing else is.",
  "all sets of requested features, all function calls and operators on all argument types and dimensions, integer and rational exponents",
  "there are 2^16 sets of features, the test suite is compiled for a few; and for each the calls range over unboundedly many dimensions",
  ["Cargo.toml:features", "src/lib.rs", US+"codegen/storage_types.rs", US+"codegen/float_methods.rs", US+"codegen/vector_methods.rs", US+"codegen/generic_methods.rs", US+"codegen/serde.rs", US+"codegen/hdf5.rs"])
p("C56","Debug and release builds agree",
"Whatever a unit system and its generated code do in a dev build (overflow checks on) without panic or compile error, they do the same in a release build (overflow checks off): the macro reports the same errors and defines the same dimensions, units and constants, every operator and function has the same type and computes the same value, and text is printed and read in the same way. What a release build does beyond that is determined: its exponents are the true exponents modulo 2^64, and without rational-dimensions the macro never panics.",
"all macro arguments, all operand types and values, all text, with and without rational-dimensions",
"Tests run in one profile; the claim compares two builds for every unit system and every operation, including those whose exponents overflow.",
[US+"dimension_math.rs:BaseDimensions", LIB+"ratio.rs:Ratio", LIB+"dimension_exponent.rs:DimensionExponent", US+"codegen/dimension_type.rs"])

p("C57", "Numbers in printed and parsed quantities",
  "The number of a float quantity is printed as a sign and a decimal written out in full (no exponent, no superfluous zeros) with the fewest digits that read back, the closest such decimal; zeros, infinities and NaN print as 0, -0, inf, -inf, NaN. Every float is read back exactly from its text. A text is accepted as a number exactly if it is an optional sign followed by a decimal numeral (digits, optional point, optional exponent) or nan/inf/infinity in any case, and a numeral is read as a nearest float of the quantity's type, or infinity out of range.",
  "all f32 and f64 values; all texts",
  "2^64 doubles, each with its own shortest decimal; the set of accepted texts is infinite",
  [US + "codegen/debug_trait.rs: gen_debug_trait_impl", US + "codegen/serde.rs: visit_str, serialize"])

p("C58", "Square roots undo squares and lengths bound components, in floating point",
  "For every f32 or f64 quantity q whose square neither overflows nor falls below the least normal number, q.squared().sqrt() is exactly |q|; sqrt of the square of a float is that float, and sqrt never reverses the order of two quantities. The length of a vector quantity is at least the absolute value of each such component, even if it overflows, and equals it if the other components are zero.",
  "all finite f32 and f64 values; all vectors of them; both builds (std and libm) and every correctly rounded sqrt",
  "the identity depends on how a rounded square rounds back; 2^64 doubles cannot be tried, and pairs and triples even less",
  [US + "codegen/float_methods.rs: squared, sqrt", US + "codegen/vector_methods.rs: length", "src/lib.rs: crate documentation, Arithmetics and math"])

p("C59", "Stored texts survive extension of the unit system",
  "If a new version of a unit system keeps the units that have symbols (for instance if it only adds statements, including new base dimensions declared before the old ones), then every text from which the old version deserialises a quantity of some dimension is deserialised by the new version, at the corresponding type, to the same quantity bit for bit; in particular every quantity the old version serialised. (The converse does not hold: a new unit of magnitude one changes what is written.)",
  "all pairs of accepted unit systems related by extension, all dimensions, all strings, all float and vector storage types",
  "quantifies over two unit systems, all strings and all values; the order of base dimensions and the table of symbols change between the versions",
  [US + "codegen/serde.rs: serde_impl, runtime_unit_storage", US + "codegen/debug_trait.rs", US + "dimension_math.rs", US + "codegen/units_and_constants.rs"])

p("C60", "A unit system with other base units measures the same quantities",
  "Take an accepted unit system all of whose statements are true equations about the units of another system (for instance cm, g, s as base units and metre = 100 cm, against metre, kg, s). Then in exact arithmetic every unit has the same exponents in both, its conversion factors differ by the product of the sizes of the base units to these exponents, conversions between units of one dimension have the same factor, every program of the API (except the quotients and unchecked calls of C21) computes the same physical values, and every text is read as the same physical value.",
  "all accepted unit systems and all systems in which their statements are true, all positive sizes of base units, integer and rational exponents; all programs, all texts",
  "relates two unit systems and every chain of definitions in them",
  [US + "resolve/mod.rs", US + "dimension_math.rs", US + "codegen/units_and_constants.rs", US + "codegen/serde.rs"])

p("C61", "Renaming changes nothing but the names",
  "Consistently renaming dimensions (base dimensions included), units with their aliases, and constants of a unit system, so that different things keep different names and prefixed names stay prefixed, changes neither acceptance nor rejection. Under its new name everything has the exponents and the conversion factor it had, and every text or number is deserialised exactly as before. Quantities also print and serialise as before if no two units of factor one with a symbol share a dimension; otherwise the symbol printed is that of the unit whose name comes first, and renaming a unit can change it.",
  "all unit systems, all injective renamings, all dimensions, all values and all strings",
  "quantifies over all unit systems and all renamings; the generated code is ordered by name, so every name could matter",
  [US + "resolve/ident_storage.rs: resolved (BTreeMap), get_items", US + "resolve/mod.rs", US + "types/mod.rs: expand", US + "codegen/debug_trait.rs", US + "codegen/serde.rs"])

p("C62", "A unit symbol in a text means the unit in code",
  "Deserialising a number followed by a unit symbol (a parenthesised list of numbers for vectors) as a quantity of the unit's dimension gives exactly the quantity that multiplying the number (vector) by the unit gives in code, bit for bit, in f32 and f64, with and without std, for every unit whose factor is stored without loss; in particular for every unit of the si module that has a symbol, with every prefix, with integer and with rational exponents.",
  "all accepted unit systems, all units with a symbol, all numbers, all storage types, all ways of writing the text",
  "text and code take different paths to the factor (a table of f64 literals, a power and a product against a constant parameter); bitwise equality must hold for every unit and number",
  [US + "codegen/serde.rs: read_single_unit_str, get_value_and_unit_from_str", US + "codegen/units_and_constants.rs", "crates/diman_lib/src/magnitude.rs"])

p("C63", "Texts of SI quantities",
  "In the si module, printing a quantity of any dimension never panics and shows the stored value with coherent SI units whose powers multiply to exactly its dimension; a serialised quantity is deserialised to itself bit for bit whatever its numbers; and no text makes deserialisation panic (texts below 2^29 characters). With feature rational-dimensions the same holds, fractional dimensions included for printing, except that only quantities with integer exponents are read back (fractional powers are not read: C27).",
  "all seven exponents, all floats including NaN and infinities, all storage types, all texts",
  "quantifies over all dimensions, all float values and all texts for the shipped unit system as a whole",
  ["src/si.rs", US + "codegen/debug_trait.rs", US + "codegen/serde.rs"])

p("C64", "A text with SI units is read with the sizes of the SI",
  "In the si module, a text is read as a quantity exactly when it is a number (or a parenthesised tuple of numbers) followed by SI unit symbols with prefixes and integer powers whose product has the requested dimension; the stored number is the number in the text times the exact size of these units by the SI table, up to (sum over the units of 18|power| + 2, plus 1) times 2^-52 relative error (2^-22 for single-precision storage); no two symbols with prefixes clash, so the text has only one meaning. With feature rational-dimensions the same holds for a platform powf accurate to 3/4 of a unit in the last place.",
  "all texts, all dimensions, all storage types, any number of units and any powers",
  "unit tests read a few texts; the meaning of every text and the error of every product of powers is a statement about all of them",
  ["src/si.rs", US + "codegen/serde.rs", "crates/diman_lib/src/magnitude.rs"])

p("C65", "Generated operator implementations are legal Rust and mean what they are for",
  "Whatever storage types are enabled, every operator impl the macro writes obeys the rules of Rust: generic parameters declared once, declared before use and constrained; orphan rule; method and associated type as the trait demands; the where clauses that the body, the moves out of references and the output type need; and the header applies to exactly the operand types, with exactly the outcome, that the operator is specified to have.",
  "all lists of enabled storage types, all generated operators, all generic arguments (dimensions, storage types)",
  "a unit test compiles one configuration and uses some instances of the generic impls; legality for every configuration and the meaning for all generic arguments are universal",
  [US + "codegen/num_traits/operator_trait.rs"])

p("C66", "Product and Quotient types mean the product and quotient, however nested",
  "A type written with Product<A, B> and Quotient<A, B> has the exponents of the types in it, added for factors and subtracted for divisors, is a quantity exactly if one of them is, and has the common float type and the vector type among them; grouping and order do not matter, and dividing by a factor cancels it.",
  "all nestings of Product and Quotient over all quantities and numbers, all unit systems",
  "unit tests and doc tests write out two such types; the algebra must hold for every nesting",
  ["src/lib.rs:526", "src/lib.rs:537", US + "codegen/num_traits/operator_trait.rs"])

p("C67", "The generated implementations are legal together",
  "Whatever cargo features are on, no two of the impl blocks a unit_system! invocation generates implement the same trait for the same type, and no two define a method of the same name for the same type; none clashes with the implementations that core, serde and mpi have for all types or all references; blocks of several unit systems in one program never clash. Every block declares exactly the generic parameters it uses, has a local type where the orphan rule demands one, and has exactly the items its trait demands; where a trait demands another one (PartialOrd, Copy, Eq, ConstParamTy), that one is implemented too.",
  "all sets of cargo features, all pairs of generated impl blocks, all generic arguments, any number of unit systems and base dimensions",
  "a test compiles one set of features at a time (2^14 exist) and one program; that no types exist for which two implementations apply is a statement about all types",
  [US + "codegen/mod.rs", US + "codegen/num_traits/operator_trait.rs", US + "codegen/float_methods.rs", US + "codegen/vector_methods.rs", US + "codegen/generic_methods.rs", US + "codegen/unit_type.rs", US + "codegen/serde.rs", US + "codegen/rand.rs", US + "codegen/mpi.rs", US + "codegen/hdf5.rs"])

p("C68", "Which method a call on a quantity means",
  "A method call on a quantity with a dimension, or on any reference to one, always is a call of a method of the quantity type, from a fixed documented list depending on the storage type and features: no method of the stored number (or of what it dereferences to) and no mathematical function is reachable, whatever methods the stored type has. On a dimensionless quantity the quantity's own method is called if there is one of that name, and otherwise the call means the same call on the stored number. Switching on features changes no accepted call on a quantity with a dimension; on a dimensionless one it can redirect a call from the number's method to the quantity's.",
  "all cargo features, all storage types with any methods and dereferences of their own, all dimensions, all method names, any number of references",
  "tests call some methods on some quantities; that nothing else is callable is a statement about all names, types and dimensions",
  [US + "codegen/quantity_type.rs", US + "codegen/float_methods.rs", US + "codegen/vector_methods.rs", US + "codegen/generic_methods.rs", US + "codegen/storage_types.rs"])

p("C69", "Functions generic in dimensions",
  "A user function whose parameters are dimensions (fn f<const D: Dimension, ...>) is checked once: if it type-checks with the dimensions unknown, every instance type-checks and all instances compute the same numbers. Multiplying every argument by the factors its type prescribes, one freely chosen positive factor per dimension parameter, multiplies the result by the factor its type prescribes; the function takes the same branches and loops. So fn f<D>(Quantity<f64, D>) -> Quantity<f64, D> satisfies f(c x) = c f(x), fn f<D>(Quantity<f64, D>) -> f64 (or bool) cannot depend on the size of its argument, and fn f<D>() -> Quantity<f64, D> can only return zero. Quantities of two different dimension parameters can never be added or compared.",
  "all functions (also mutually recursive, with loops, local variables, vectors) over the generated API with any number of dimension parameters, all dimensions put for the parameters, all positive factors, all arguments",
  "a test calls one function at a few dimensions with a few numbers; that all instances agree and that the signature determines how results scale are statements about all programs",
  [US + "codegen/dimension_type.rs:219", US + "codegen/num_traits/operator_trait.rs", US + "codegen/float_methods.rs", US + "codegen/quantity_type.rs", "README.md:36"])

p("C70", "Two unit systems in one program do not mix",
  "In a program with several unit_system! invocations, no operator, comparison, assignment, conversion or summing - generated, or given by core for references and conversions - relates a type (quantity, unit, or a reference to one) of one unit system to a type of another. The conversions by From/Into are exactly: a value to its own type, a value to a dimensionless quantity storing it, and a unit to its conversion factor; no quantity converts to one of another system, dimension or storage type, nor to a number. (value_in is the exception: it takes units of any system.)",
  "all numbers of unit systems with any base dimensions and cargo features, all pairs of types, all generic arguments, any references",
  "a compile-fail test shows one rejected pair; that no pair of types of two systems is related by any generated block is a statement about all types",
  [US + "codegen/num_traits/mod.rs", US + "codegen/num_traits/operator_trait.rs", US + "codegen/unit_type.rs:163", US + "codegen/quantity_type.rs:61", US + "codegen/mod.rs"])

p("C71", "Dimensional analysis holds of programs",
  "For every type-checked function: multiplying the arguments and the sizes of the units it uses by positive factors that agree with their dimensions multiplies the result by the factor for its dimension. A function that gets everything with a dimension as an argument and returns a number, truth value or dimensionless quantity depends on its (positive) arguments only through their dimensionless products of powers (Buckingham's theorem). If the dimensions of the arguments are independent, the result is one fixed number times the product of powers that has the dimension of the result: every function from a length and an acceleration to a time computes a constant times sqrt(l/g). If the dimension of the result cannot be made from those of the arguments and units, the function can only return zero.",
  "all functions (also mutually recursive, with loops, branches, local variables) over the generated API, all arguments, all factors, all dimensions with integral or rational exponents",
  "a test runs one function on a few numbers; that the types alone determine how any program can depend on its arguments is a statement about all programs",
  [US + "codegen/dimension_type.rs:219", US + "codegen/num_traits/operator_trait.rs", US + "codegen/float_methods.rs", US + "codegen/vector_methods.rs", US + "codegen/quantity_type.rs"])

p("C72", "Programs panic only where the user can see it",
  "A type-checked program over the generated API (all operators, all generated functions including the unchecked ones, units, conditionals, loops, vectors, recursive functions) never gets stuck: it ends with values of the types the type checker gave, goes on, or panics at a clamp whose bounds are not in order (for floats: also if one of them is NaN), at a vector index out of range, or in a function of plain values that the user wrote. Without those three things it does not panic at all. A panic is final: no number of iterations or calls makes the program end.",
  "all programs, all initial values, all numbers of iterations and calls, all dimensions and storage types, exact arithmetic and floats",
  "a test runs a few programs; that no well-typed combination of the generated functions panics is a statement about all programs and executions",
  [US + "codegen/float_methods.rs:142-156", US + "codegen/vector_methods.rs", US + "codegen/num_traits/operator_trait.rs", US + "codegen/unit_type.rs", US + "codegen/quantity_type.rs"])

p("C73", "Format options change the number and nothing else",
  "Printing a quantity with format options (precision, width, alignment, fill, sign) writes the stored number with these options and then exactly the unit that {:?} writes, for every dimension; it panics for no options unless it panics for all. A precision p gives exactly p decimals: the nearest decimal with that many, ties to even. The width is a minimum for the number alone, without the unit. Text printed with options that fill with blanks can be deserialised, and gives the number that was written: the same float if no precision was given. Vectors are printed as without options.",
  "all options, all float values including infinities and NaN, all dimensions, all accepted unit systems; shown for the SI system without further assumptions",
  "precisions, widths and values are unbounded; tests show a few directives",
  [US + "codegen/debug_trait.rs:45-90", US + "codegen/serde.rs:60-276"])

p("C74", "Units cost nothing at run time",
  "A type-checked program over the generated API computes exactly what the same program on plain numbers and glam vectors computes: forgetting the units (a quantity is its number, a unit its conversion factor, an operator or method that of the storage type) and running gives the same numbers, bit for bit for floats, and panics or runs on exactly when the program with units does. In particular dimensions have no influence on values: programs that differ only in them compute the same numbers.",
  "all type-checked programs (all operators and generated functions, loops, vectors, recursive functions), all initial values, all dimensions and exponent types, every arithmetic including IEEE floats",
  "a test compares a few computations with their plain counterparts; the claim is about all programs and all values",
  [US + "codegen/num_traits/operator_trait.rs", US + "codegen/float_methods.rs", US + "codegen/vector_methods.rs", US + "codegen/unit_type.rs", US + "codegen/quantity_type.rs"])

p("C75", "Errors of deserialising say what is wrong",
  "Deserialising fails with an error that names the first thing wrong with the input, reading from left to right: an empty text, a number that cannot be parsed, a missing bracket, the wrong number of components, the first component that is no number, the first word in the place of a unit that is no unit power (with the reason: more than one ^, an exponent that is no integer, a symbol of no unit), or, when everything can be read, the dimension that was given and the one that was needed; a bare number for a quantity with a dimension is shown. A word blamed by an error is never accepted in any text. Two failures with the same message are the same error.",
  "all accepted unit systems, all storage types, all requested dimensions, all texts and bare numbers",
  "a test tries a few malformed texts; which of several errors is reported, and that every malformed text is covered, ranges over all texts",
  [US + "codegen/serde.rs:33-85", US + "codegen/serde.rs:110-261"])

p("C76", "A text cut short is refused",
  "A serialised quantity that has a dimension and lost its end, by any number of characters (a crash while it was written), is never read as a quantity of its type: not by the version of the unit system that wrote it and not by a later version with more statements, for float and vector quantities. For the SI this holds without further assumptions and the outcome is an error, not a panic. In other systems it needs that no unit symbol begins like the symbol of another printed unit of the same dimension. It does not hold for dimensionless quantities.",
  "all accepted unit systems with tear-safe symbols, all later versions, all nonzero dimensions with integer exponents, all storage types, all values, all crash points (every proper initial piece of the text)",
  "the crash point and the value are arbitrary: a test cuts a few texts at a few places",
  [US + "codegen/serde.rs:33-85", US + "codegen/serde.rs:158-179", US + "codegen/serde.rs:228-273", US + "codegen/debug_trait.rs:45-90"])

p("C77", "Stored data survives every history",
  "A program keeps serialised quantities while its unit system is extended again and again. Whatever happens, in any order - quantities are written, deleted, copied, read and written back one by one (a migration that may stop anywhere), the unit system gets more statements, crashes cut texts short - every record that is not torn is read by the current version as exactly the value last written to it, at its dimension and at no other; it can always be written back; the current version still has its type; and a torn record of a quantity with a dimension is refused.",
  "all histories (finite sequences of events, any number of records and versions), all accepted unit systems along the way, all storage types, values and integer dimensions",
  "histories, crash points and interleavings of migration with upgrades are unbounded",
  [US + "codegen/serde.rs:33-85", US + "codegen/serde.rs:158-179", US + "codegen/serde.rs:228-273", US + "codegen/debug_trait.rs:45-90", US + "dimension_math.rs"])

p("C78", "Programs with different versions of a unit system do not misread each other",
  "Programs compiled with different versions of a unit system exchange serialised quantities. If all versions in use have a common extension (one system with the statements of all), then under every schedule - sends, deliveries in any order and any number of times or never, relaying through any number of nodes, messages cut short, nodes upgraded or rolled back at any time - a node that reads a message as a quantity of its storage type gets exactly the value sent first, and only at its dimension; a torn message of a quantity with a dimension is refused; and the common extension reads every whole message. Versions that merely extend the same older version can misread each other.",
  "all schedules, any number of nodes, versions and messages, all accepted unit systems, storage types, values and integer dimensions",
  "the space of schedules and versions is unbounded; a test runs one",
  [US + "codegen/serde.rs:33-85", US + "codegen/serde.rs:158-179", US + "codegen/serde.rs:228-273", US + "codegen/debug_trait.rs:45-90"])

p("C79", "In floats, the choice of base units changes results by rounding only",
  "The same calculation, compiled for two unit systems that differ in their base units only (for instance metres and centimetres), gives results that agree up to rounding: the result in one system, converted to the base units of the other, differs from the result there by at most the sum of the two rounding bounds (the bounds of C51, which are computed step by step from the calculation, the inputs and the conversion factors). A plain number (value_in, a dimensionless quantity, a ratio) needs no conversion: the two plain results differ by rounding only. In particular a wrong factor, a factor applied twice or forgotten in one system cannot hide behind the choice of base units.",
  "all type-checked calculations (operators, generated methods, let, vectors) and programs that branch on comparisons whose operands are further apart than the bounds, all pairs of unit systems whose exact factors are related by a change of base units, f32 and f64, std and libm builds, all inputs within the stated bounds",
  "the calculation, the two systems and the inputs are arbitrary, and floats are never equal after rescaling; a test compares a few numbers with an ad hoc tolerance",
  [US + "codegen/float_methods.rs", US + "codegen/vector_methods.rs", US + "codegen/num_traits/operator_trait.rs", US + "codegen/unit_type.rs", "crates/diman_lib/src/magnitude.rs"])

p("C80", "Exactly the well-formed unit systems are accepted",
  "The macro reports no error if and only if the statements are a well-formed unit system: one quantity type and one dimension type; no name (of a dimension, a unit, a constant, an alias or a prefixed variant) and no symbol twice; dimensions defined from dimensions, units and constants from units and constants; base units with a symbol and for a base dimension, at most one for each; nothing defined, directly or not, from itself; every annotation a dimension which agrees with the annotated item in each base dimension that the definition of the annotation leads to (the rule of the code, weaker than equality of dimensions: C14). For such systems the statements, read as equations between dimensions, have exactly one solution, and it is what is generated. With integer exponents the macro neither reports an error nor overflows if and only if, in addition, no step of computing that solution leaves the range of a 64-bit integer.",
  "all lists of statements (any number, any expressions, integer exponents, or rational ones in normal form on runs that do not overflow); from the tokens, all token sequences (rational exponents: with positive denominators)",
  "both directions quantify over all unit systems: that nothing ill-formed slips through and that nothing well-formed is refused; tests show single systems",
  [US + "resolve/mod.rs", US + "resolve/ident_storage.rs", US + "types/mod.rs", US + "dimension_math.rs"])

p("C81", "The reports name every culprit",
  "One run of the macro on a faulty unit system reports so much that whatever no report is about is in order: any part of the statements that is self-contained (what its definitions and annotations mention is defined in it, and it has the quantity and dimension type) and of which no report is about a name or an annotation is accepted alone, as a well-formed unit system of its own; and what is generated from it then was already computed, the same, in the run on the faulty system. Conversely, a self-contained part that would be refused contains the subject of some report of the whole. So a user who corrects or removes exactly what the reports name, and what depends on it, does not meet further errors.",
  "all lists of statements (integer or rational exponents in normal form, on runs that do not overflow) and all sublists, in any order",
  "quantifies over all faulty unit systems and all their parts; in particular that no check masks the errors of another: tests show single reports",
  [US + "resolve/mod.rs", US + "resolve/ident_storage.rs", US + "resolve/error.rs"])

p("C82", "Independent extensions of a unit system can be combined",
  "Several groups of statements each extend a unit system, and with each of them alone the macro accepts it. Then it accepts it with all of them together if and only if no two of the groups share a name (of a dimension, a unit, an alias, a prefixed unit or a constant), a symbol, or a base dimension for which both declare a base unit. Nothing else can go wrong: no definition becomes cyclic or ambiguous, no annotation becomes wrong, no exponent overflows. What is generated is what was generated for each of the groups, the same dimensions, conversion factors and symbols, and nothing more.",
  "all unit systems, any number of extensions of any size, any dependencies of the extensions on the common statements, integer exponents (two extensions: also rational exponents in normal form, on runs without overflow)",
  "acceptance is a property of all statements together, and the check of annotations compares computed dimensions; tests cannot combine all pairs of extensions",
  [US + "resolve/mod.rs", US + "resolve/ident_storage.rs", US + "types/mod.rs"])

p("C83", "The macro can make every identifier it needs",
  "The macro makes identifiers from strings: the names and symbols of prefixed units, and the fields of the dimension type (base dimensions in snake case). If no name is a raw identifier, each of these strings is an identifier, so making them never panics. With raw identifiers (r#in), the macro panics, apart from overflow, exactly if a unit with prefixes has a raw name, alias or symbol, or a base dimension has a raw name. Whatever it accepts, all names and symbols in the generated definitions are identifiers, and the fields are plain ones. In all other cases everything else said of the macro holds whatever the names are.",
  "all unit systems with plain or raw identifiers of any length, all prefixes, aliases and symbols",
  "proc_macro panics on a string that is no identifier; tests can only try some names",
  [US + "types/mod.rs", US + "types/base_dimension.rs", US + "resolve/mod.rs"])

if __name__ == "__main__":
    out=os.path.join(os.path.dirname(__file__),"..","properties.jsonl")
    with open(out,"w") as f:
        for x in P: f.write(json.dumps(x,ensure_ascii=False)+"\n")
    print(len(P))
