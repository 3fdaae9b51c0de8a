{
 "claims": [
  {
   "property": "C01",
   "status": "partial",
   "theorems": [
    "Diman.C01_exact",
    "Diman.C01_div_exact_partial",
    "Diman.C01_new_exact",
    "Diman.C01_overflow_refused",
    "Diman.C01_no_false_refusal",
    "Diman.C01_div_by_zero_not_refused",
    "Diman.C01_literal_zero_denominator_accepted"
   ],
   "note": "Exact for + - neg * and division by non-zero; overflow refused; but division by the exponent zero is NOT refused by the code (C01_div_by_zero_not_refused), so the full statement is false."
  },
  {
   "property": "C02",
   "status": "partial",
   "theorems": [
    "Diman.C02_canonical_partial",
    "Diman.C02_equal_iff_same_rational_partial",
    "Diman.C02_negative_denominator_counterexample",
    "Diman.C02_negative_divisor_counterexample",
    "Diman.C02_powi",
    "Diman.C02_powi_wrong"
   ],
   "note": "Proved for all computation histories with positive literal denominators and positive divisors; refuted in general by the counterexample theorems (sign not normalised)."
  },
  {
   "property": "C03",
   "status": "partial",
   "theorems": [
    "Diman.C03_roundtrip_iff_partial",
    "Diman.C03_roundtrip_iff_exact_powi_partial",
    "Diman.C03_roundtrip_iff_no_std_partial",
    "Diman.C03_small_becomes_zero",
    "Diman.C03_nan_becomes_infinity",
    "Diman.C03_no_std_superset",
    "Diman.C03_counterexample",
    "Diman.C03_distinct_stored_distinctly"
   ],
   "note": "Exact characterisation of the doubles that survive the round trip, with and without feature std; the full statement is false of the code (NaN becomes infinity; with std |x| < 2^-971 becomes zero, without std subnormals do), all refuted by theorem."
  },
  {
   "property": "C04",
   "status": "proved",
   "theorems": [
    "Diman.C04_print_parse",
    "Diman.C04_print_parse_dimension",
    "Diman.C04_left_associative",
    "Diman.C04_juxtaposition",
    "Diman.C04_power_binds",
    "Diman.C04_no_power_of_parentheses"
   ],
   "note": "Print/parse round trip, left associativity, juxtaposition and binding of ^ for all expressions, over token trees (syn behaviour of peek/parse is modelled, see DESIGN.md)."
  },
  {
   "property": "C05",
   "status": "proved",
   "theorems": [
    "Diman.C05_iff",
    "Diman.C05_dimension_iff",
    "Diman.C05_language",
    "Diman.C05_unique",
    "Diman.C05_unique_prefix"
   ],
   "note": "Acceptance iff grammar, over all token-tree sequences, with unique readings; for unit/constant and dimension right-hand sides, integer and rational exponents."
  },
  {
   "property": "C06",
   "status": "proved",
   "theorems": [
    "Diman.C06_dimension_algebra",
    "Diman.C06_wellformed",
    "Diman.C06_dimension_algebra_int"
   ],
   "note": "For both exponent types (integer and rational), any expression."
  },
  {
   "property": "C07",
   "status": "proved",
   "theorems": [
    "Diman.C07_equations",
    "Diman.C07_goodExponents_int"
   ],
   "note": "For all templates, any exponent type and magnitude arithmetic; side condition only excludes exponent literals n/0 (proved automatic for integer exponents)."
  },
  {
   "property": "C08",
   "status": "proved",
   "theorems": [
    "Diman.C08_order_irrelevant",
    "Diman.C08_acceptance_iff"
   ],
   "note": "All permutations of the statements of each kind; the generated lists are literally equal, base dimension list equal up to order."
  },
  {
   "property": "C09",
   "status": "proved",
   "theorems": [
    "Diman.C09_only_overflow_panics",
    "Diman.C09_generated_iff",
    "Diman.C09_unresolvable_iff",
    "Diman.C09_recursive_iff"
   ],
   "note": "Both directions, any dependency graph; distinct names assumed for the iff (C11 reports the others)."
  },
  {
   "property": "C10",
   "status": "proved",
   "theorems": [
    "Diman.C10_complete"
   ],
   "note": "Complete: the generated names are a permutation of the promised ones."
  },
  {
   "property": "C11",
   "status": "proved",
   "theorems": [
    "Diman.C11_duplicate_is_error",
    "Diman.C11_reported_iff",
    "Diman.C11_no_false_report",
    "Diman.C11_symbol_iff"
   ],
   "note": ""
  },
  {
   "property": "C12",
   "status": "proved",
   "theorems": [
    "Diman.C12_kinds",
    "Diman.C12_reported_iff"
   ],
   "note": ""
  },
  {
   "property": "C13",
   "status": "proved",
   "theorems": [
    "Diman.C13_base_units",
    "Diman.C13_reports"
   ],
   "note": ""
  },
  {
   "property": "C14",
   "status": "partial",
   "theorems": [
    "Diman.C14_annotation_partial",
    "Diman.C14_violated_iff_partial",
    "Diman.C14_not_a_dimension",
    "Diman.C14_not_enforced",
    "Diman.C14_false_alarm"
   ],
   "note": "The full iff is false of the code: a subset comparison lets `unit foo: Length = meters*seconds` through (C14_not_enforced) and rejects an explicit-zero annotation (C14_false_alarm). The exact condition the code enforces is proved (\u2026_partial)."
  },
  {
   "property": "C15",
   "status": "proved",
   "theorems": [
    "Diman.C15_units",
    "Diman.C15_exactly",
    "Diman.C15_factors"
   ],
   "note": "Holds for the factors of std and no_std builds."
  },
  {
   "property": "C16",
   "status": "proved",
   "theorems": [
    "Diman.C16_prefixes",
    "Diman.C16_distinct",
    "Diman.C16_factor"
   ],
   "note": "Holds for the factors of std and no_std builds."
  },
  {
   "property": "C17",
   "status": "proved",
   "theorems": [
    "Diman.C17_vectors",
    "Diman.C17_normal_form",
    "Diman.C17_same_type_iff",
    "Diman.C17_comm",
    "Diman.C17_assoc",
    "Diman.C17_identity",
    "Diman.C17_inverse",
    "Diman.C17_quotient",
    "Diman.C17_power",
    "Diman.C17_roots_undo",
    "Diman.C17_root_accepted_iff",
    "Diman.C17_int_accepted_iff",
    "Diman.C17_rational_root"
   ],
   "note": ""
  },
  {
   "property": "C18",
   "status": "proved",
   "theorems": [
    "Diman.C18_exponents",
    "Diman.C18_same_type_iff",
    "Diman.C18_collision_refused",
    "Diman.C18_literals_int",
    "Diman.C18_literals_rational",
    "Diman.C18_exponents_camel"
   ],
   "note": ""
  },
  {
   "property": "C19",
   "status": "proved",
   "theorems": [
    "Diman.C19_snake_case",
    "Diman.C19_injective",
    "Diman.C19_fields",
    "Diman.C19_needs_camel_case"
   ],
   "note": ""
  },
  {
   "property": "C20",
   "status": "proved",
   "theorems": [
    "Diman.C20_equal_dimensions",
    "Diman.C20_assign_dimensionless",
    "Diman.C20_mul",
    "Diman.C20_div",
    "Diman.C20_available",
    "Diman.C20_no_unreachable",
    "Diman.C20_exactly",
    "Diman.C20_unambiguous",
    "Diman.C20_outcome_unique",
    "Diman.C20_no_duplicates"
   ],
   "note": ""
  },
  {
   "property": "C21",
   "status": "partial",
   "theorems": [
    "Diman.C21_terms_partial",
    "Diman.C21_plain_results_partial",
    "Diman.C21_programs_partial",
    "Diman.C21_ends_partial",
    "Diman.C21_unit_div_quantity_refuted",
    "Diman.C21_number_div_unit_refuted",
    "Diman.C21_wrong_read_out_refuted"
   ],
   "note": "Proved for expressions and whole programs (assignments, branches, loops) of the checked API, all operators and functions, any scales, exact arithmetic, except two families of quotients (unit/quantity, number/unit) for which the property is refuted by theorem. User-defined functions other than functions of plain values are not modelled."
  },
  {
   "property": "C22",
   "status": "proved",
   "theorems": [
    "Diman.C22_types",
    "Diman.C22_same",
    "Diman.C22_same_float",
    "Diman.C22_round_trip_exact",
    "Diman.C22_round_trip_float",
    "Diman.C22_round_trip_float_exact"
   ],
   "note": ""
  },
  {
   "property": "C23",
   "status": "partial",
   "theorems": [
    "Diman.C23_mul_value",
    "Diman.C23_div_value_partial",
    "Diman.C23_unit_div_quantity_wrong",
    "Diman.C23_composite",
    "Diman.C23_mul_dimension",
    "Diman.C23_div_dimension_partial",
    "Diman.C23_number_div_unit_wrong"
   ],
   "note": "Products: values and dimensions proved in all cases. Quotients: proved except unit/quantity and number/unit, which the generated code gets wrong (C23_unit_div_quantity_wrong, C23_number_div_unit_wrong)."
  },
  {
   "property": "C24",
   "status": "partial",
   "theorems": [
    "Diman.C24_value_in_partial",
    "Diman.C24_any_dimension_accepted",
    "Diman.C24_refuted",
    "Diman.C24_same_dimension_exact"
   ],
   "note": "Value proved for a unit of the same dimension; the compile-time rejection of other dimensions is false of the code (C24_refuted)."
  },
  {
   "property": "C25",
   "status": "proved",
   "theorems": [
    "Diman.C25_values",
    "Diman.C25_types",
    "Diman.C25_root_type",
    "Diman.C25_power_is_product",
    "Diman.C25_root_accepted_iff",
    "Diman.C25_root_of_power_accepted",
    "Diman.C25_root_value_exact",
    "Diman.C25_power_value_exact"
   ],
   "note": ""
  },
  {
   "property": "C26",
   "status": "partial",
   "theorems": [
    "Diman.C26_debug_partial",
    "Diman.C26_missing_base_unit_refuted"
   ],
   "note": "Proved for accepted systems in which every base dimension has a base unit and field names are distinct; without a base unit the generated code panics (C26_missing_base_unit_refuted)."
  },
  {
   "property": "C27",
   "status": "partial",
   "theorems": [
    "Diman.C27_round_trip_partial",
    "Diman.C27_large_exponent_refuted",
    "Diman.C27_rational_refuted",
    "Diman.C27_float_int_partial",
    "Diman.C27_float_rational_partial",
    "Diman.C27_core_int_partial",
    "Diman.C27_core_rational_partial"
   ],
   "note": "Proved for all dimensions with integer exponents in the i32 range; false of the code for fractional exponents and exponents beyond i32 (both refuted by theorem). C27_core_int_partial and C27_core_rational_partial are about IEEE floats and the text core prints and reads for them (Model/CoreText), with no assumption about text."
  },
  {
   "property": "C28",
   "status": "partial",
   "theorems": [
    "Diman.C28_float_iff",
    "Diman.C28_dimension",
    "Diman.C28_compiles",
    "Diman.C28_value",
    "Diman.C28_no_panic",
    "Diman.C28_overflow_refuted"
   ],
   "note": "The iff, dimension and value parts are proved for every string; 'never a panic' is false of the code (C28_overflow_refuted: i64 overflow), C28_no_panic gives an explicit bound under which it never panics."
  },
  {
   "property": "C29",
   "status": "proved",
   "theorems": [
    "Diman.C29_number_iff",
    "Diman.C29_vector",
    "Diman.C29_string_iff",
    "Diman.C29_exact"
   ],
   "note": "All numbers presented by the data format as i64/u64/f64, and strings consisting of one number; vectors never accept a bare number."
  },
  {
   "property": "C30",
   "status": "partial",
   "theorems": [
    "Diman.C30_vector_iff",
    "Diman.C30_wrong_count",
    "Diman.C30_dimension",
    "Diman.C30_no_panic",
    "Diman.C30_round_trip_partial"
   ],
   "note": "Acceptance iff and wrong-count rejection for every string; round trip for integer exponents in the i32 range (beyond that false, as for C27)."
  },
  {
   "property": "C31",
   "status": "proved",
   "theorems": [
    "Diman.C31_types",
    "Diman.C31_product_types",
    "Diman.C31_get",
    "Diman.C31_new",
    "Diman.C31_set",
    "Diman.C31_set_get",
    "Diman.C31_new_axis",
    "Diman.C31_dot",
    "Diman.C31_min_max",
    "Diman.C31_new_axis_exact",
    "Diman.C31_lengths_exact",
    "Diman.C31_normalize_exact"
   ],
   "note": ""
  },
  {
   "property": "C32",
   "status": "proved",
   "theorems": [
    "Diman.C32_operators",
    "Diman.C32_operators_sound",
    "Diman.C32_functions_sound",
    "Diman.C32_neg_abs",
    "Diman.C32_min_max_clamp",
    "Diman.C32_dimensionless",
    "Diman.C32_wrap_unwrap",
    "Diman.C32_predicates",
    "Diman.C32_bodies",
    "Diman.C32_components",
    "Diman.C32_compare_exact"
   ],
   "note": ""
  },
  {
   "property": "C33",
   "status": "proved",
   "theorems": [
    "Diman.C33_quantity_to_number",
    "Diman.C33_number_to_quantity",
    "Diman.C33_mixed_arguments",
    "Diman.C33_operators",
    "Diman.C33_transcendental",
    "Diman.C33_value_iff"
   ],
   "note": ""
  },
  {
   "property": "C34",
   "status": "proved",
   "theorems": [
    "Diman.C34_mpi_type_map",
    "Diman.C34_mpi_transfer",
    "Diman.C34_hdf5",
    "Diman.C34_dimension_irrelevant"
   ],
   "note": ""
  },
  {
   "property": "C35",
   "status": "proved",
   "theorems": [
    "Diman.C35_half_open",
    "Diman.C35_inclusive",
    "Diman.C35_same_stream",
    "Diman.C35_sample_many",
    "Diman.C35_sample_stream",
    "Diman.C35_rand",
    "Diman.C35_rand_returns",
    "Diman.C35_rand_slow"
   ],
   "note": ""
  },
  {
   "property": "C36",
   "status": "proved",
   "theorems": [
    "Diman.C36_int",
    "Diman.C36_rational"
   ],
   "note": "The input is the verbatim text of src/si.rs through lexer, parser and resolver; one-pass kernel check proved sound w.r.t. the code's algorithm, for both exponent types and for arbitrary magnitudes."
  },
  {
   "property": "C37",
   "status": "proved",
   "theorems": [
    "Diman.C37_iff",
    "Diman.C37_requirements",
    "Diman.C37_rejections",
    "Diman.C37_bad_attributes",
    "Diman.C37_ignored_attributes",
    "Diman.C37_system_rejected"
   ],
   "note": "Unit statements: iff with the grammar plus explicit rejection theorems. C37_ignored_attributes records that on other statements argument-less attributes are silently ignored."
  },
  {
   "property": "C38",
   "status": "proved",
   "theorems": [
    "Diman.C38_single_type"
   ],
   "note": ""
  },
  {
   "property": "C39",
   "status": "partial",
   "theorems": [
    "Diman.C39_reported_iff_partial",
    "Diman.C39_only_undefined",
    "Diman.C39_never_silent",
    "Diman.C39_complete_if_single_partial",
    "Diman.C39_second_not_reported"
   ],
   "note": "No false reports and no silent acceptance are proved in full; completeness is false of the code: only the first undefined identifier of each definition is reported (C39_second_not_reported). Exact characterisation proved."
  },
  {
   "property": "C40",
   "status": "proved",
   "theorems": [
    "Diman.C40_order_irrelevant",
    "Diman.C40_dimension_value",
    "Diman.C40_model_is_an_outcome"
   ],
   "note": "Every iteration over a HashMap is a nondeterministic choice (Spec/HashOrder.lean); any two outcomes agree. Order of fields inside generated struct expressions and order of errors may differ; their meaning does not."
  },
  {
   "property": "C41",
   "status": "partial",
   "theorems": [
    "Diman.C41_literal_partial",
    "Diman.C41_integer",
    "Diman.C41_decimal_one",
    "Diman.C41_not_exactly_one",
    "Diman.C41_definition_partial",
    "Diman.C41_no_dimension"
   ],
   "note": "Integer literals: exactly 1. Decimal literals are compared after rounding to a double, so the claim is false for literals that round to 1.0 (C41_not_exactly_one); the exact accepted interval is proved."
  },
  {
   "property": "C42",
   "status": "proved",
   "theorems": [
    "Diman.C42_iff",
    "Diman.C42_unique",
    "Diman.C42_print_parse",
    "Diman.C42_macro",
    "Diman.C42_meaning_int",
    "Diman.C42_meaning_rational",
    "Diman.C42_reading_total"
   ],
   "note": "Whole input: iff with the grammar, unique reading, print/parse round trip, and syntax error iff no reading. Token trees are the input; the Rust lexer is modelled only as far as the examples need (Model/Lexer)."
  },
  {
   "property": "C43",
   "status": "proved",
   "theorems": [
    "Diman.C43_sum",
    "Diman.C43_empty",
    "Diman.C43_type",
    "Diman.C43_sum_float"
   ],
   "note": ""
  },
  {
   "property": "C44",
   "status": "proved",
   "theorems": [
    "Diman.C44_storable_roundtrip",
    "Diman.C44_is_f64_arithmetic",
    "Diman.C44_relative_error",
    "Diman.C44_magnitude_relative_error",
    "Diman.C44_one_neutral",
    "Diman.C44_mul_comm",
    "Diman.C44_with_f64",
    "Diman.C44_with_f32",
    "Diman.C44_with_f64_relative_error",
    "Diman.C44_f32_widens",
    "Diman.C44_f32_operators"
   ],
   "note": "Magnitudes in the storable range (normal doubles of absolute value at least 2^-971, and zero); the soft-float is proved to round within half an ulp. Holds for the factors of std and no_std builds. C44_f32_widens, C44_f32_operators: the detour of the f32 operators through f64 loses nothing (infinities and subnormals included)."
  },
  {
   "property": "C45",
   "status": "proved",
   "theorems": [
    "Diman.C45_numbers_do_not_matter",
    "Diman.C45_from_tokens"
   ],
   "note": "Resolution commutes with forgetting the numbers."
  },
  {
   "property": "C46",
   "status": "proved",
   "theorems": [
    "Diman.C46_si_exact",
    "Diman.C46_si_float",
    "Diman.C46_si_rational_names",
    "Diman.C46_pi",
    "Diman.C46_si_rational_float"
   ],
   "note": "Exact values and the code's doubles, with and without std (34 instead of 17 units in the last place without) and with rational-dimensions. The tables (Spec/SiTable.lean) are transcribed by hand from the SI brochure. For the rational-dimensions build (C46_si_rational_float) the platform's powf is assumed accurate to 3/4 ulp (PowfAccurate, Spec/RealEstimate.lean); C46_si_rational_names needs no assumption."
  },
  {
   "property": "C47",
   "status": "proved",
   "theorems": [
    "Diman.C47_factors_accurate",
    "Diman.C47_f32_factor",
    "Diman.C47_rational_accurate"
   ],
   "note": "inRange (every intermediate value and power within 2^-900..2^900) is computed by the same run. Integer build: powi of compiler-rt (std) or of num-traits (no_std, powers cost twice), no assumption. rational-dimensions build (C47_rational_accurate): real-valued exact factors, fractional powers, under the assumption that the platform's powf is accurate to 3/4 ulp (PowfAccurate; exists_powfAccurate shows it can be met)."
  },
  {
   "property": "C48",
   "status": "proved",
   "theorems": [
    "Diman.C48_visible",
    "Diman.C48_undefined",
    "Diman.C48_unresolvable",
    "Diman.C48_duplicate",
    "Diman.C48_duplicate_symbol",
    "Diman.C48_mismatch",
    "Diman.C48_order_irrelevant",
    "Diman.C48_sides_equal_iff",
    "Diman.C48_false_alarm",
    "Diman.C48_exactly",
    "Diman.C48_misleading_note"
   ],
   "note": "Texts of resolve/error.rs over the whole resolver; the repository's own trybuild .stderr texts are reproduced by the model (Examples/Ui.lean). C48_false_alarm shows the one case in which the two sides of a mismatch read the same (F2). C48_exactly: for distinct and defined names the list of errors is exactly that of Spec/Complaint.lean, texts, marks and notes included. F22: C48_misleading_note."
  },
  {
   "property": "C49",
   "status": "proved",
   "theorems": [
    "Diman.C49_legal_iff",
    "Diman.C49_paths",
    "Diman.C49_unit_path",
    "Diman.C49_runtime_unit_private",
    "Diman.C49_exports",
    "Diman.C49_identifiers",
    "Diman.C49_other_names",
    "Diman.C49_reserved",
    "Diman.C49_si",
    "Diman.C49_si_rational"
   ],
   "note": "Names and modules of the generated code against a small specification of Rust's scoping (Spec/Scope.lean). F18: quantity_type/dimension_type other than Quantity/Dimension are accepted but do not compile (C49_other_names); F19: base dimension names whose snake case is a keyword, and a dimension called Exponent, likewise (C49_reserved). The macro is taken to be the only thing in its module."
  },
  {
   "property": "C50",
   "status": "proved",
   "theorems": [
    "Diman.C50_definitions",
    "Diman.C50_failures",
    "Diman.C50_types",
    "Diman.C50_factors",
    "Diman.C50_text",
    "Diman.C50_operators",
    "Diman.C50_functions",
    "Diman.C50_values",
    "Diman.C50_limit",
    "Diman.C50_strict"
   ],
   "note": "Definitions, errors, panics and generated types for any arithmetic of factors; factors and text when both builds calculate alike (exact arithmetic; the float code uses powi in one build and powf in the other). Operators and functions under the condition that no exponent is i64::MIN, which cannot be dropped (C50_limit, F21)."
  },
  {
   "property": "C51",
   "status": "proved",
   "theorems": [
    "Diman.C51_accurate",
    "Diman.C51_accurate_system",
    "Diman.C51_conversion",
    "Diman.C51_si_conversion",
    "Diman.C51_sum"
   ],
   "note": "Assumption PlatformFns.Ieee (satisfiable: exists_ieee): sqrt correctly rounded, powi as compiled by compiler-rt (std) or num-traits (no_std); + - * / are the model's correctly rounded operations. Calculations with cbrt, transcendental functions and comparisons have no book, so nothing is claimed of them."
  },
  {
   "property": "C52",
   "status": "proved",
   "theorems": [
    "Diman.C52_extension",
    "Diman.C52_removal",
    "Diman.C52_add_constant",
    "Diman.C52_add_unit",
    "Diman.C52_add_dimension",
    "Diman.C52_add_base_unit"
   ],
   "note": "Extension, removal and the four kinds of additions are six theorems; the exponents of an added definition are computed by Expr.dimsIn, which follows the order of the code because exponents of HashMaps are compared up to order (see C14)."
  },
  {
   "property": "C53",
   "status": "proved",
   "theorems": [
    "Diman.C53_compare",
    "Diman.C53_min_max",
    "Diman.C53_clamp",
    "Diman.C53_add_sub",
    "Diman.C53_mul_div",
    "Diman.C53_units",
    "Diman.C53_si",
    "Diman.C53_laws"
   ],
   "note": "About the model's IEEE arithmetic (round to nearest, ties to even), which is part of the trusted base; no accuracy assumption on powi/sqrt is used."
  },
  {
   "property": "C54",
   "status": "proved",
   "theorems": [
    "Diman.C54_write_out",
    "Diman.C54_name_parts",
    "Diman.C54_parentheses"
   ],
   "note": "C54_write_out, C54_name_parts, C54_parentheses: for every arithmetic of factors (MagOps), so also for IEEE floats bit for bit."
  },
  {
   "property": "C55",
   "status": "proved",
   "theorems": [
    "Diman.C55_resolution",
    "Diman.C55_monotone",
    "Diman.C55_storage_features",
    "Diman.C55_additive",
    "Diman.C55_documented",
    "Diman.C55_closed",
    "Diman.C55_refused",
    "Diman.C55_no_std"
   ],
   "note": "C55_resolution, C55_monotone, C55_storage_features, C55_additive, C55_documented, C55_closed, C55_refused; C55_no_std records finding F23 (serde, or hdf5 with vectors, without std generates code that names std)."
  },
  {
   "property": "C56",
   "status": "proved",
   "theorems": [
    "Diman.C56_system",
    "Diman.C56_system_rational",
    "Diman.C56_syntax",
    "Diman.C56_no_panic",
    "Diman.C56_types",
    "Diman.C56_operators",
    "Diman.C56_functions",
    "Diman.C56_values",
    "Diman.C56_text",
    "Diman.C56_text_rational",
    "Diman.C56_modulo",
    "Diman.C56_modulo_types",
    "Diman.C56_wraps",
    "Diman.C56_wraps_types"
   ],
   "note": "C56_system(_rational), C56_syntax, C56_types, C56_operators, C56_functions, C56_values, C56_text(_rational): whatever works in a dev build is the same in a release build. C56_no_panic; C56_modulo, C56_modulo_types: what the release build does beyond that; C56_wraps, C56_wraps_types record finding F24."
  },
  {
   "property": "C57",
   "status": "proved",
   "theorems": [
    "Diman.C57_round_trip",
    "Diman.C57_printed",
    "Diman.C57_special",
    "Diman.C57_accepts",
    "Diman.C57_reads",
    "Diman.C57_reads_special"
   ],
   "note": "About the model of core's Display and FromStr (documented result: shortest digits, correctly rounded reading; not the Grisu/Eisel-Lemire algorithms). C57_reads is for exponents below 655360 in absolute value, beyond which core's parser saturates."
  },
  {
   "property": "C58",
   "status": "proved",
   "theorems": [
    "Diman.C58_root_of_square",
    "Diman.C58_exact",
    "Diman.C58_monotone",
    "Diman.C58_length",
    "Diman.C58_axis_length",
    "Diman.C58_underflow"
   ],
   "note": "sqrt is taken to be correctly rounded (PlatformFns.NearestSqrt, as IEEE 754 and core document it; it is a platform instruction). The bound on underflow is needed: C58_underflow."
  },
  {
   "property": "C59",
   "status": "proved",
   "theorems": [
    "Diman.C59_reading",
    "Diman.C59_upgrade",
    "Diman.C59_saved",
    "Diman.C59_not_backward"
   ],
   "note": "C59_not_backward refutes the converse (finding F25)."
  },
  {
   "property": "C60",
   "status": "proved",
   "theorems": [
    "Diman.C60_rebase",
    "Diman.C60_conversions",
    "Diman.C60_programs",
    "Diman.C60_texts"
   ],
   "note": "Exact real conversion factors (exactReal). C60_programs is about the programs for which C21 holds (FaithfulCall)."
  },
  {
   "property": "C61",
   "status": "proved",
   "theorems": [
    "Diman.C61_renaming",
    "Diman.C61_accepted_iff",
    "Diman.C61_values",
    "Diman.C61_reading",
    "Diman.C61_printing",
    "Diman.C61_print_depends_on_names"
   ],
   "note": "C61_printing needs NoTies; C61_print_depends_on_names shows that it does."
  },
  {
   "property": "C62",
   "status": "proved",
   "theorems": [
    "Diman.C62_text_is_code",
    "Diman.C62_text_is_code_rational",
    "Diman.C62_si",
    "Diman.C62_si_rational"
   ],
   "note": "The factor must be Storable (at least 2^-971 in absolute value, or zero; finding F8 otherwise). With rational-dimensions powf(x, 1) = x is assumed of the platform. Vectors: the no-panic bound of C30 limits the length of the text."
  },
  {
   "property": "C63",
   "status": "proved",
   "theorems": [
    "Diman.C63_si",
    "Diman.C63_si_rational"
   ],
   "note": "Core's number text as modelled (CoreText). C63_si: integer exponents; the only assumption on the platform is powf(1, y) = 1. C63_si_rational: rational exponents; powf is assumed accurate to 3/4 ulp with powf(x, 1) = x and powf(1, y) = 1; reading back is for integer exponents (F6)."
  },
  {
   "property": "C64",
   "status": "proved",
   "theorems": [
    "Diman.C64_unambiguous",
    "Diman.C64_one_meaning",
    "Diman.C64_si",
    "Diman.C64_si_reads",
    "Diman.C64_si_rational",
    "Diman.C64_si_single_rational",
    "Diman.C64_si_reads_rational",
    "Diman.C64_si_single"
   ],
   "note": "C64_si, C64_si_single, C64_si_reads: integer exponents, with and without std; C64_*_rational: rational exponents, powf assumed accurate to 3/4 ulp. C64_si*: size for double-precision storage, C64_si_single*: for single precision, acceptance for all storage types. That the accepted texts consist of table symbols is C64_si; that the declared ones are accepted is C64_si_reads; sizes assume nothing comes near overflow/underflow (Comfortable)."
  },
  {
   "property": "C65",
   "status": "proved",
   "theorems": [
    "Diman.C65_legal",
    "Diman.C65_meaning"
   ],
   "note": "The rules of Rust are stated in Spec/ImplLegal.lean (E0207, E0117/E0210, E0507, trait signatures, generic_const_exprs clauses). The unit impls of unit_type.rs are fixed text without case distinctions and are not repeated here."
  },
  {
   "property": "C66",
   "status": "proved",
   "theorems": [
    "Diman.C66_meaning",
    "Diman.C66_same",
    "Diman.C66_cancel",
    "Diman.C66_exists"
   ],
   "note": "Both exponent representations. Whether an inner type compiles depends on overflow of exponents (C66_exists), so the equalities are for types that compile."
  },
  {
   "property": "C67",
   "status": "proved",
   "theorems": [
    "Diman.C67_no_conflict",
    "Diman.C67_systems_coexist",
    "Diman.C67_legal",
    "Diman.C67_supported",
    "Diman.C67_nested"
   ],
   "note": "Types stored in quantities range over all types not themselves made of quantities and units; C67_nested shows that the restriction is needed for a statement about headers alone (finding F29). Where clauses and lifetimes are left out (for the operators they are in C65)."
  },
  {
   "property": "C68",
   "status": "proved",
   "theorems": [
    "Diman.C68_dimensioned",
    "Diman.C68_dimensionless",
    "Diman.C68_additive",
    "Diman.C68_not_additive",
    "Diman.C68_functions"
   ],
   "note": "Inherent methods only (methods of traits are not modelled). C68_functions shows that the function table used in C21, C24 and C55 is that of the generated blocks. C68_not_additive records finding F30."
  },
  {
   "property": "C69",
   "status": "proved",
   "theorems": [
    "Diman.C69_instances",
    "Diman.C69_programs",
    "Diman.C69_functions",
    "Diman.C69_linear",
    "Diman.C69_sizeless",
    "Diman.C69_only_zero",
    "Diman.C69_refused",
    "Diman.C69_not_simplified"
   ],
   "note": "Numbers are exact as in C21, calls that bypass the unit system and the wrong quotients of C23 are excluded as in C21 (GenericCall). Exponents of instances are exact; an instance whose exponents overflow is a compile error (C03). rustc's equality of dimension expressions is taken to be equality of expressions after evaluating those without parameters; a smaller equality accepts fewer programs, for which the theorems hold a fortiori."
  },
  {
   "property": "C70",
   "status": "proved",
   "theorems": [
    "Diman.C70_no_mixing",
    "Diman.C70_conversions",
    "Diman.C70_sums",
    "Diman.C70_assign_mutable",
    "Diman.C70_between_quantities",
    "Diman.C70_value_in_mixes",
    "Diman.C70_nested"
   ],
   "note": "Headers of the generated blocks (Model/Impls, where clauses left out, which can only make more relations hold) with core's blanket implementations. The first type must not itself store types of unit systems (C70_nested). C70_value_in_mixes is the exception of finding F32."
  },
  {
   "property": "C71",
   "status": "proved",
   "theorems": [
    "Diman.C71_factors",
    "Diman.C71_agree_iff",
    "Diman.C71_pi",
    "Diman.C71_power_law",
    "Diman.C71_zero"
   ],
   "note": "Exact arithmetic and the calls of C21 (FaithfulCall): without the functions that bypass the unit system and the wrong quotients of C23. Functions with vectors as arguments (&mut Vec) are in C21, not here; C71_pi and C71_power_law are for floating-point arguments with plain values beside them, C71_factors and C71_zero for arguments of all types."
  },
  {
   "property": "C72",
   "status": "proved",
   "theorems": [
    "Diman.C72_terms",
    "Diman.C72_programs",
    "Diman.C72_quiet",
    "Diman.C72_terms_panic",
    "Diman.C72_stops",
    "Diman.C72_panic",
    "Diman.C72_float"
   ],
   "note": "For every arithmetic in which clamp asserts that its bounds are in order: exact numbers and, C72_float, f32/f64 with rounding, infinities and NaN. The bound on iterations and calls stands for time; stack overflow and running out of memory are not modelled."
  },
  {
   "property": "C73",
   "status": "proved",
   "theorems": [
    "Diman.C73_precision",
    "Diman.C73_special",
    "Diman.C73_width",
    "Diman.C73_options",
    "Diman.C73_default",
    "Diman.C73_read_back_int",
    "Diman.C73_read_back_rational",
    "Diman.C73_si"
   ],
   "note": "Assumes nothing about core's text except the model of flt2dec's documented results (exact fixed-point rounding with ties to even, as in core since 1.67). The flags 0, # and x? and the LowerExp/UpperExp forms are left out (the generated Debug has none of the latter). Reading back has the hypotheses of C27 (base units exist, integer exponents in the range of i32)."
  },
  {
   "property": "C74",
   "status": "proved",
   "theorems": [
    "Diman.C74_terms",
    "Diman.C74_programs",
    "Diman.C74_dimensions",
    "Diman.C74_float"
   ],
   "note": "The plain program of a unit divided by a quantity is the one the generated code computes, quantity by factor, which is not the quotient (C23, F3). Values, not machine code: what the compiler makes of the wrapper types is not modelled. Functions are those of C32; allocation and stack are not modelled."
  },
  {
   "property": "C75",
   "status": "proved",
   "theorems": [
    "Diman.C75_same_outcome",
    "Diman.C75_float_iff",
    "Diman.C75_vector_iff",
    "Diman.C75_number_iff",
    "Diman.C75_other",
    "Diman.C75_expected",
    "Diman.C75_blame",
    "Diman.C75_message"
   ],
   "note": "Runs that panic (overflow of an exponent, C30/F15) give no error and are excluded. What serde prints for an unexpected value (`Unexpected`) is a parameter; the texts of core's ParseFloatError are core's. C75_message compares two failures for the same storage type and unit system."
  },
  {
   "property": "C76",
   "status": "proved",
   "theorems": [
    "Diman.C76_cut_refused",
    "Diman.C76_si",
    "Diman.C76_not_dimensionless",
    "Diman.C76_needs_safe"
   ],
   "note": "For dimensions with integer exponents (others are written in a form that cannot be read, C27/F6). C76_not_dimensionless: nothing marks the end of a dimensionless text (F33). C76_needs_safe: without tear-safe symbols a cut symbol can be another unit of the same dimension. C76_si: the generated code of the SI, with the soft-float model, for texts below 2^29 characters."
  },
  {
   "property": "C77",
   "status": "proved",
   "theorems": [
    "Diman.C77_history",
    "Diman.C77_torn",
    "Diman.C77_type",
    "Diman.C77_migration",
    "Diman.C77_no_other",
    "Diman.C77_si"
   ],
   "note": "The store, its events and crashes are the user's (Spec/Archive.lean); reading and writing are the generated Serialize and Deserialize. Versions grow by adding statements (C52); a rollback can fail (C59_not_backward). Torn records: dimension nonzero, all versions tear-safe. C77_si: the SI is a possible beginning."
  },
  {
   "property": "C78",
   "status": "proved",
   "theorems": [
    "Diman.C78_never_misread",
    "Diman.C78_dimension",
    "Diman.C78_torn",
    "Diman.C78_delivered",
    "Diman.C78_needs_common"
   ],
   "note": "The network is the user's (Spec/Network.lean); reading and writing are the generated Serialize and Deserialize. An older node may refuse a message (C59_not_backward); it never misreads it. C78_needs_common: without a common extension the claim is false (F34)."
  },
  {
   "property": "C79",
   "status": "proved",
   "theorems": [
    "Diman.C79_rounding_only",
    "Diman.C79_systems",
    "Diman.C79_plain",
    "Diman.C79_branching",
    "Diman.C79_branching_systems",
    "Diman.C79_comparison"
   ],
   "note": "C79_rounding_only, C79_systems, C79_plain: calculations without conditionals. C79_comparison: results further apart than the error bounds compare the same way in both systems, as their exact values do (nearer ones may go either way after rounding). C79_branching: programs with conditionals (Spec/Branching.lean) none of whose comparisons is that close (C79_branching_systems: with the books that the macro's own arithmetic yields). Calls are the faithful ones of C21 (F3, F4, F14 concern the others). Nothing is claimed of cbrt, ln, sin and so on, whose library accuracy is unspecified: the book of such a result is not in order. The hypothesis that the exact factors differ by the scale of the dimension is what C60_rebase proves for rebased systems. C79_rounding_only: books given; C79_systems: the books are those the macro's own arithmetic yields (C51); C79_plain: dimensionless results."
  },
  {
   "property": "C80",
   "status": "proved",
   "theorems": [
    "Diman.C80_accepted_iff",
    "Diman.C80_unique",
    "Diman.C80_solution",
    "Diman.C80_exactly",
    "Diman.C80_macro",
    "Diman.C80_macro_rational",
    "Diman.C80_macro_exactly",
    "Diman.C80_si",
    "Diman.C80_si_rational"
   ],
   "note": "Unresolved.WellFormed (Spec/WellFormed.lean) speaks of the statements as written, not of the expansion, the resolver or its errors. The clause on annotations is the code's rule; C14 and F1, F2 say where it differs from equality. C80_accepted_iff: the equivalence (integer or rational exponents, on runs without overflow); C80_unique, C80_solution: the equations have exactly one solution and the generated items have it; C80_exactly: with integer exponents no hypothesis is left: accepted iff well formed and the equations have a solution with no step of its computation outside i64; C80_macro, C80_macro_rational, C80_macro_exactly: the same from the tokens (rational exponents: if no denominator written is zero or negative). C80_si, C80_si_rational: the instance src/si.rs, for any numbers."
  },
  {
   "property": "C81",
   "status": "proved",
   "theorems": [
    "Diman.C81_remaining",
    "Diman.C81_named",
    "Diman.C81_wellFormed"
   ],
   "note": "C81_remaining: any innocent part is accepted alone, and its items are among those computed in the faulty run. C81_named: the converse formulation. C81_wellFormed: in terms of the statements (C80). The part must be self-contained: what it mentions, in definitions and annotations, is defined in it. Of a wrong annotation the report names the annotation, not the annotated item; Innocent.annotations says that. The reports on the type declarations (typeNone, typeMultiple) are about no name: the part has one of each."
  },
  {
   "property": "C82",
   "status": "proved",
   "theorems": [
    "Diman.C82_merge",
    "Diman.C82_merge_int",
    "Diman.C82_items",
    "Diman.C82_all"
   ],
   "note": "C82_merge_int: two extensions, integer exponents, no further hypothesis. C82_merge: any exponents, on runs without overflow. C82_all: any number of extensions. C82_items: exactly the items of the two. Unresolved.Apart (Spec/Merge.lean) speaks of the statements as written."
  },
  {
   "property": "C83",
   "status": "proved",
   "theorems": [
    "Diman.C83_sound",
    "Diman.C83_panics_iff",
    "Diman.C83_plain",
    "Diman.C83_symbol_in",
    "Diman.C83_generated",
    "Diman.C83_tokens",
    "Diman.C83_tokens_raw"
   ],
   "note": "C83_tokens: for every invocation, given as tokens, none of whose identifiers is raw, making identifiers never panics. C83_tokens_raw: with raw identifiers the outcome is that of the model without these panics, or a panic for one of the two reasons. C83_generated: in every accepted run all names and symbols in the generated definitions are identifiers, the fields plain ones (that a field may be a keyword is F19). C83_plain: as C83_tokens, for the statements as read. C83_panics_iff: exactly when it panics with them (F26). C83_sound: where it does not panic the run is runUnitSystem, which the other theorems are about. C83_symbol_in: the symbol `in` can be had as r#in, but without prefixes. Non-ASCII characters count as XID_Start."
  }
 ]
}