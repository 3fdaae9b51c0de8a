# Axioms of the claimed theorems

Generated by tools/axioms.py from `#print axioms`.

| property | theorem | axioms |
|---|---|---|
| C01 | Diman.C01_exact | propext, Classical.choice, Quot.sound |
| C01 | Diman.C01_div_exact_partial | propext, Classical.choice, Quot.sound |
| C01 | Diman.C01_new_exact | propext, Classical.choice, Quot.sound |
| C01 | Diman.C01_overflow_refused | propext, Classical.choice, Quot.sound |
| C01 | Diman.C01_no_false_refusal | propext, Classical.choice, Quot.sound |
| C01 | Diman.C01_div_by_zero_not_refused | propext, Classical.choice, Quot.sound |
| C01 | Diman.C01_literal_zero_denominator_accepted | propext, Classical.choice, Quot.sound |
| C02 | Diman.C02_canonical_partial | propext, Classical.choice, Quot.sound |
| C02 | Diman.C02_equal_iff_same_rational_partial | propext, Classical.choice, Quot.sound |
| C02 | Diman.C02_negative_denominator_counterexample | propext, Classical.choice, Quot.sound |
| C02 | Diman.C02_negative_divisor_counterexample | propext, Classical.choice, Quot.sound |
| C02 | Diman.C02_powi | propext, Classical.choice, Quot.sound |
| C02 | Diman.C02_powi_wrong | propext, Classical.choice, Quot.sound |
| C03 | Diman.C03_roundtrip_iff_partial | propext, Classical.choice, Quot.sound |
| C03 | Diman.C03_roundtrip_iff_exact_powi_partial | propext, Classical.choice, Quot.sound |
| C03 | Diman.C03_roundtrip_iff_no_std_partial | propext, Classical.choice, Quot.sound |
| C03 | Diman.C03_small_becomes_zero | propext, Classical.choice, Quot.sound |
| C03 | Diman.C03_nan_becomes_infinity | propext, Classical.choice, Quot.sound |
| C03 | Diman.C03_no_std_superset | propext, Classical.choice, Quot.sound |
| C03 | Diman.C03_counterexample | propext, Classical.choice, Quot.sound |
| C03 | Diman.C03_distinct_stored_distinctly | propext, Classical.choice, Quot.sound |
| C04 | Diman.C04_print_parse | propext, Classical.choice, Quot.sound |
| C04 | Diman.C04_print_parse_dimension | propext, Classical.choice, Quot.sound |
| C04 | Diman.C04_left_associative | propext, Classical.choice, Quot.sound |
| C04 | Diman.C04_juxtaposition | propext, Classical.choice, Quot.sound |
| C04 | Diman.C04_power_binds | propext, Classical.choice, Quot.sound |
| C04 | Diman.C04_no_power_of_parentheses | propext, Quot.sound |
| C05 | Diman.C05_iff | propext, Classical.choice, Quot.sound |
| C05 | Diman.C05_dimension_iff | propext, Classical.choice, Quot.sound |
| C05 | Diman.C05_language | propext, Classical.choice, Quot.sound |
| C05 | Diman.C05_unique | propext, Classical.choice, Quot.sound |
| C05 | Diman.C05_unique_prefix | propext, Classical.choice, Quot.sound |
| C06 | Diman.C06_dimension_algebra | propext, Classical.choice, Quot.sound |
| C06 | Diman.C06_wellformed | propext, Classical.choice, Quot.sound |
| C06 | Diman.C06_dimension_algebra_int | propext, Classical.choice, Quot.sound |
| C07 | Diman.C07_equations | propext, Classical.choice, Quot.sound |
| C07 | Diman.C07_goodExponents_int | propext, Classical.choice, Quot.sound |
| C08 | Diman.C08_order_irrelevant | propext, Classical.choice, Quot.sound |
| C08 | Diman.C08_acceptance_iff | propext, Classical.choice, Quot.sound |
| C09 | Diman.C09_only_overflow_panics | propext, Classical.choice, Quot.sound |
| C09 | Diman.C09_generated_iff | propext, Classical.choice, Quot.sound |
| C09 | Diman.C09_unresolvable_iff | propext, Classical.choice, Quot.sound |
| C09 | Diman.C09_recursive_iff | propext, Classical.choice, Quot.sound |
| C10 | Diman.C10_complete | propext, Classical.choice, Quot.sound |
| C11 | Diman.C11_duplicate_is_error | propext, Classical.choice, Quot.sound |
| C11 | Diman.C11_reported_iff | propext, Classical.choice, Quot.sound |
| C11 | Diman.C11_no_false_report | propext, Classical.choice, Quot.sound |
| C11 | Diman.C11_symbol_iff | propext, Classical.choice, Quot.sound |
| C12 | Diman.C12_kinds | propext, Classical.choice, Quot.sound |
| C12 | Diman.C12_reported_iff | propext, Classical.choice, Quot.sound |
| C13 | Diman.C13_base_units | propext, Classical.choice, Quot.sound |
| C13 | Diman.C13_reports | propext, Classical.choice, Quot.sound |
| C14 | Diman.C14_annotation_partial | propext, Classical.choice, Quot.sound |
| C14 | Diman.C14_violated_iff_partial | propext, Classical.choice, Quot.sound |
| C14 | Diman.C14_not_a_dimension | propext, Classical.choice, Quot.sound |
| C14 | Diman.C14_not_enforced | propext, Classical.choice, Quot.sound |
| C14 | Diman.C14_false_alarm | propext, Classical.choice, Quot.sound |
| C15 | Diman.C15_units | propext, Classical.choice, Quot.sound |
| C15 | Diman.C15_exactly | propext, Classical.choice, Quot.sound |
| C15 | Diman.C15_factors | propext, Classical.choice, Quot.sound |
| C16 | Diman.C16_prefixes | propext, Quot.sound |
| C16 | Diman.C16_distinct | propext |
| C16 | Diman.C16_factor | propext, Classical.choice, Quot.sound |
| C17 | Diman.C17_vectors | propext, Classical.choice, Quot.sound |
| C17 | Diman.C17_normal_form | propext, Classical.choice, Quot.sound |
| C17 | Diman.C17_same_type_iff | propext, Classical.choice, Quot.sound |
| C17 | Diman.C17_comm | propext, Classical.choice, Quot.sound |
| C17 | Diman.C17_assoc | propext, Classical.choice, Quot.sound |
| C17 | Diman.C17_identity | propext, Classical.choice, Quot.sound |
| C17 | Diman.C17_inverse | propext, Classical.choice, Quot.sound |
| C17 | Diman.C17_quotient | propext, Classical.choice, Quot.sound |
| C17 | Diman.C17_power | propext, Classical.choice, Quot.sound |
| C17 | Diman.C17_roots_undo | propext, Classical.choice, Quot.sound |
| C17 | Diman.C17_root_accepted_iff | propext, Classical.choice, Quot.sound |
| C17 | Diman.C17_int_accepted_iff | propext, Classical.choice, Quot.sound |
| C17 | Diman.C17_rational_root | propext, Classical.choice, Quot.sound |
| C18 | Diman.C18_exponents | propext, Classical.choice, Quot.sound |
| C18 | Diman.C18_same_type_iff | propext, Classical.choice, Quot.sound |
| C18 | Diman.C18_collision_refused | propext, Classical.choice, Quot.sound |
| C18 | Diman.C18_literals_int | propext, Classical.choice, Quot.sound |
| C18 | Diman.C18_literals_rational | propext, Classical.choice, Quot.sound |
| C18 | Diman.C18_exponents_camel | propext, Classical.choice, Quot.sound |
| C19 | Diman.C19_snake_case | propext, Classical.choice, Quot.sound |
| C19 | Diman.C19_injective | propext, Quot.sound |
| C19 | Diman.C19_fields | propext, Classical.choice, Quot.sound |
| C19 | Diman.C19_needs_camel_case | propext |
| C20 | Diman.C20_equal_dimensions | propext, Classical.choice, Quot.sound |
| C20 | Diman.C20_assign_dimensionless | propext, Quot.sound |
| C20 | Diman.C20_mul | propext, Classical.choice, Quot.sound |
| C20 | Diman.C20_div | propext, Classical.choice, Quot.sound |
| C20 | Diman.C20_available | propext, Quot.sound |
| C20 | Diman.C20_no_unreachable | propext, Quot.sound |
| C20 | Diman.C20_exactly | propext, Quot.sound |
| C20 | Diman.C20_unambiguous | propext, Quot.sound |
| C20 | Diman.C20_outcome_unique | propext, Quot.sound |
| C20 | Diman.C20_no_duplicates | propext, Quot.sound |
| C21 | Diman.C21_terms_partial | propext, Classical.choice, Quot.sound |
| C21 | Diman.C21_plain_results_partial | propext, Classical.choice, Quot.sound |
| C21 | Diman.C21_programs_partial | propext, Classical.choice, Quot.sound |
| C21 | Diman.C21_ends_partial | propext, Classical.choice, Quot.sound |
| C21 | Diman.C21_unit_div_quantity_refuted | propext, Classical.choice, Quot.sound |
| C21 | Diman.C21_number_div_unit_refuted | propext, Classical.choice, Quot.sound |
| C21 | Diman.C21_wrong_read_out_refuted | propext, Classical.choice, Quot.sound |
| C22 | Diman.C22_types | propext |
| C22 | Diman.C22_same | propext, Quot.sound |
| C22 | Diman.C22_same_float | propext, Classical.choice, Quot.sound |
| C22 | Diman.C22_round_trip_exact | propext, Classical.choice, Quot.sound |
| C22 | Diman.C22_round_trip_float | propext, Classical.choice, Quot.sound |
| C22 | Diman.C22_round_trip_float_exact | propext, Classical.choice, Quot.sound |
| C23 | Diman.C23_mul_value | propext, Classical.choice, Quot.sound |
| C23 | Diman.C23_div_value_partial | propext, Classical.choice, Quot.sound |
| C23 | Diman.C23_unit_div_quantity_wrong | propext, Classical.choice, Quot.sound |
| C23 | Diman.C23_composite | propext, Classical.choice, Quot.sound |
| C23 | Diman.C23_mul_dimension | propext, Classical.choice, Quot.sound |
| C23 | Diman.C23_div_dimension_partial | propext, Classical.choice, Quot.sound |
| C23 | Diman.C23_number_div_unit_wrong | propext, Classical.choice, Quot.sound |
| C24 | Diman.C24_value_in_partial | propext |
| C24 | Diman.C24_any_dimension_accepted | propext |
| C24 | Diman.C24_refuted | propext |
| C24 | Diman.C24_same_dimension_exact | propext, Classical.choice, Quot.sound |
| C25 | Diman.C25_values | propext |
| C25 | Diman.C25_types | propext, Classical.choice, Quot.sound |
| C25 | Diman.C25_root_type | propext, Classical.choice, Quot.sound |
| C25 | Diman.C25_power_is_product | propext, Classical.choice, Quot.sound |
| C25 | Diman.C25_root_accepted_iff | propext, Classical.choice, Quot.sound |
| C25 | Diman.C25_root_of_power_accepted | propext, Classical.choice, Quot.sound |
| C25 | Diman.C25_root_value_exact | propext, Classical.choice, Quot.sound |
| C25 | Diman.C25_power_value_exact | propext, Classical.choice, Quot.sound |
| C26 | Diman.C26_debug_partial | propext, Classical.choice, Quot.sound |
| C26 | Diman.C26_missing_base_unit_refuted | propext, Classical.choice, Quot.sound |
| C27 | Diman.C27_round_trip_partial | propext, Classical.choice, Quot.sound |
| C27 | Diman.C27_large_exponent_refuted | propext, Classical.choice, Quot.sound |
| C27 | Diman.C27_rational_refuted | propext, Classical.choice, Quot.sound |
| C27 | Diman.C27_float_int_partial | propext, Classical.choice, Quot.sound |
| C27 | Diman.C27_float_rational_partial | propext, Classical.choice, Quot.sound |
| C27 | Diman.C27_core_int_partial | propext, Classical.choice, Quot.sound |
| C27 | Diman.C27_core_rational_partial | propext, Classical.choice, Quot.sound |
| C28 | Diman.C28_float_iff | propext, Classical.choice, Quot.sound |
| C28 | Diman.C28_dimension | propext, Classical.choice, Quot.sound |
| C28 | Diman.C28_compiles | propext, Classical.choice, Quot.sound |
| C28 | Diman.C28_value | propext, Classical.choice, Quot.sound |
| C28 | Diman.C28_no_panic | propext, Classical.choice, Quot.sound |
| C28 | Diman.C28_overflow_refuted | propext, Classical.choice, Quot.sound |
| C29 | Diman.C29_number_iff | propext, Classical.choice, Quot.sound |
| C29 | Diman.C29_vector | propext, Classical.choice, Quot.sound |
| C29 | Diman.C29_string_iff | propext, Classical.choice, Quot.sound |
| C29 | Diman.C29_exact | propext, Classical.choice, Quot.sound |
| C30 | Diman.C30_vector_iff | propext, Classical.choice, Quot.sound |
| C30 | Diman.C30_wrong_count | propext, Classical.choice, Quot.sound |
| C30 | Diman.C30_dimension | propext, Classical.choice, Quot.sound |
| C30 | Diman.C30_no_panic | propext, Classical.choice, Quot.sound |
| C30 | Diman.C30_round_trip_partial | propext, Classical.choice, Quot.sound |
| C31 | Diman.C31_types | propext, Classical.choice, Quot.sound |
| C31 | Diman.C31_product_types | propext, Quot.sound |
| C31 | Diman.C31_get | propext, Classical.choice, Quot.sound |
| C31 | Diman.C31_new | propext, Classical.choice, Quot.sound |
| C31 | Diman.C31_set | propext, Classical.choice, Quot.sound |
| C31 | Diman.C31_set_get | propext, Classical.choice, Quot.sound |
| C31 | Diman.C31_new_axis | propext, Classical.choice, Quot.sound |
| C31 | Diman.C31_dot | propext, Quot.sound |
| C31 | Diman.C31_min_max | propext |
| C31 | Diman.C31_new_axis_exact | propext, Classical.choice, Quot.sound |
| C31 | Diman.C31_lengths_exact | propext, Classical.choice, Quot.sound |
| C31 | Diman.C31_normalize_exact | propext, Classical.choice, Quot.sound |
| C32 | Diman.C32_operators | propext, Quot.sound |
| C32 | Diman.C32_operators_sound | propext, Quot.sound |
| C32 | Diman.C32_functions_sound | propext, Quot.sound |
| C32 | Diman.C32_neg_abs | propext |
| C32 | Diman.C32_min_max_clamp | propext |
| C32 | Diman.C32_dimensionless | propext |
| C32 | Diman.C32_wrap_unwrap | propext |
| C32 | Diman.C32_predicates | propext |
| C32 | Diman.C32_bodies | propext, Quot.sound |
| C32 | Diman.C32_components | propext, Classical.choice, Quot.sound |
| C32 | Diman.C32_compare_exact | propext, Classical.choice, Quot.sound |
| C33 | Diman.C33_quantity_to_number | propext, Classical.choice, Quot.sound |
| C33 | Diman.C33_number_to_quantity | propext, Quot.sound |
| C33 | Diman.C33_mixed_arguments | propext, Classical.choice, Quot.sound |
| C33 | Diman.C33_operators | propext, Classical.choice, Quot.sound |
| C33 | Diman.C33_transcendental | propext, Quot.sound |
| C33 | Diman.C33_value_iff | propext, Quot.sound |
| C34 | Diman.C34_mpi_type_map | propext |
| C34 | Diman.C34_mpi_transfer | propext |
| C34 | Diman.C34_hdf5 | propext |
| C34 | Diman.C34_dimension_irrelevant | propext |
| C35 | Diman.C35_half_open | propext, Quot.sound |
| C35 | Diman.C35_inclusive | propext, Quot.sound |
| C35 | Diman.C35_same_stream | propext, Quot.sound |
| C35 | Diman.C35_sample_many | propext, Quot.sound |
| C35 | Diman.C35_sample_stream | propext, Quot.sound |
| C35 | Diman.C35_rand | propext, Classical.choice, Quot.sound |
| C35 | Diman.C35_rand_returns | propext, Classical.choice, Quot.sound |
| C35 | Diman.C35_rand_slow | propext, Classical.choice, Quot.sound |
| C36 | Diman.C36_int | propext, Classical.choice, Quot.sound |
| C36 | Diman.C36_rational | propext, Classical.choice, Quot.sound |
| C37 | Diman.C37_iff | propext, Classical.choice, Quot.sound |
| C37 | Diman.C37_requirements | propext, Classical.choice, Quot.sound |
| C37 | Diman.C37_rejections | propext, Classical.choice, Quot.sound |
| C37 | Diman.C37_bad_attributes | propext, Quot.sound |
| C37 | Diman.C37_ignored_attributes | propext, Classical.choice, Quot.sound |
| C37 | Diman.C37_system_rejected | propext, Classical.choice, Quot.sound |
| C38 | Diman.C38_single_type | propext, Classical.choice, Quot.sound |
| C39 | Diman.C39_reported_iff_partial | propext, Classical.choice, Quot.sound |
| C39 | Diman.C39_only_undefined | propext, Classical.choice, Quot.sound |
| C39 | Diman.C39_never_silent | propext, Classical.choice, Quot.sound |
| C39 | Diman.C39_complete_if_single_partial | propext, Classical.choice, Quot.sound |
| C39 | Diman.C39_second_not_reported | propext, Classical.choice, Quot.sound |
| C40 | Diman.C40_order_irrelevant | propext, Classical.choice, Quot.sound |
| C40 | Diman.C40_dimension_value | propext, Quot.sound |
| C40 | Diman.C40_model_is_an_outcome | propext, Classical.choice, Quot.sound |
| C41 | Diman.C41_literal_partial | propext, Classical.choice, Quot.sound |
| C41 | Diman.C41_integer | propext, Classical.choice, Quot.sound |
| C41 | Diman.C41_decimal_one | propext, Classical.choice, Quot.sound |
| C41 | Diman.C41_not_exactly_one | propext, Classical.choice, Quot.sound |
| C41 | Diman.C41_definition_partial | propext, Classical.choice, Quot.sound |
| C41 | Diman.C41_no_dimension | propext, Classical.choice, Quot.sound |
| C42 | Diman.C42_iff | propext, Classical.choice, Quot.sound |
| C42 | Diman.C42_unique | propext, Classical.choice, Quot.sound |
| C42 | Diman.C42_print_parse | propext, Classical.choice, Quot.sound |
| C42 | Diman.C42_macro | propext, Classical.choice, Quot.sound |
| C42 | Diman.C42_meaning_int | propext, Classical.choice, Quot.sound |
| C42 | Diman.C42_meaning_rational | propext, Classical.choice, Quot.sound |
| C42 | Diman.C42_reading_total | propext, Classical.choice, Quot.sound |
| C43 | Diman.C43_sum | propext, Quot.sound |
| C43 | Diman.C43_empty | propext |
| C43 | Diman.C43_type | propext, Quot.sound |
| C43 | Diman.C43_sum_float | propext, Quot.sound |
| C44 | Diman.C44_storable_roundtrip | propext, Classical.choice, Quot.sound |
| C44 | Diman.C44_is_f64_arithmetic | propext, Classical.choice, Quot.sound |
| C44 | Diman.C44_relative_error | propext, Classical.choice, Quot.sound |
| C44 | Diman.C44_magnitude_relative_error | propext, Classical.choice, Quot.sound |
| C44 | Diman.C44_one_neutral | propext, Classical.choice, Quot.sound |
| C44 | Diman.C44_mul_comm | propext, Classical.choice, Quot.sound |
| C44 | Diman.C44_with_f64 | propext, Classical.choice, Quot.sound |
| C44 | Diman.C44_with_f32 | propext, Classical.choice, Quot.sound |
| C44 | Diman.C44_with_f64_relative_error | propext, Classical.choice, Quot.sound |
| C44 | Diman.C44_f32_widens | propext, Classical.choice, Quot.sound |
| C44 | Diman.C44_f32_operators | propext, Classical.choice, Quot.sound |
| C45 | Diman.C45_numbers_do_not_matter | propext, Quot.sound |
| C45 | Diman.C45_from_tokens | propext, Classical.choice, Quot.sound |
| C46 | Diman.C46_si_exact | propext, Classical.choice, Quot.sound |
| C46 | Diman.C46_si_float | propext, Classical.choice, Quot.sound |
| C46 | Diman.C46_si_rational_names | propext, Classical.choice, Quot.sound |
| C46 | Diman.C46_pi | propext, Classical.choice, Quot.sound |
| C46 | Diman.C46_si_rational_float | propext, Classical.choice, Quot.sound |
| C47 | Diman.C47_factors_accurate | propext, Classical.choice, Quot.sound |
| C47 | Diman.C47_f32_factor | propext, Classical.choice, Quot.sound |
| C47 | Diman.C47_rational_accurate | propext, Classical.choice, Quot.sound |
| C48 | Diman.C48_visible | propext, Classical.choice, Quot.sound |
| C48 | Diman.C48_undefined | propext, Classical.choice, Quot.sound |
| C48 | Diman.C48_unresolvable | propext, Classical.choice, Quot.sound |
| C48 | Diman.C48_duplicate | propext, Classical.choice, Quot.sound |
| C48 | Diman.C48_duplicate_symbol | propext, Classical.choice, Quot.sound |
| C48 | Diman.C48_mismatch | propext, Classical.choice, Quot.sound |
| C48 | Diman.C48_order_irrelevant | propext, Classical.choice, Quot.sound |
| C48 | Diman.C48_sides_equal_iff | propext, Classical.choice, Quot.sound |
| C48 | Diman.C48_false_alarm | propext, Classical.choice, Quot.sound |
| C48 | Diman.C48_exactly | propext, Classical.choice, Quot.sound |
| C48 | Diman.C48_misleading_note | propext, Classical.choice, Quot.sound |
| C49 | Diman.C49_legal_iff | propext, Classical.choice, Quot.sound |
| C49 | Diman.C49_paths | propext, Quot.sound |
| C49 | Diman.C49_unit_path | propext, Classical.choice, Quot.sound |
| C49 | Diman.C49_runtime_unit_private | propext, Quot.sound |
| C49 | Diman.C49_exports | propext |
| C49 | Diman.C49_identifiers | propext, Classical.choice, Quot.sound |
| C49 | Diman.C49_other_names | propext, Classical.choice, Quot.sound |
| C49 | Diman.C49_reserved | propext, Classical.choice, Quot.sound |
| C49 | Diman.C49_si | propext, Classical.choice, Quot.sound |
| C49 | Diman.C49_si_rational | propext, Classical.choice, Quot.sound |
| C50 | Diman.C50_definitions | propext, Classical.choice, Quot.sound |
| C50 | Diman.C50_failures | propext, Classical.choice, Quot.sound |
| C50 | Diman.C50_types | propext, Classical.choice, Quot.sound |
| C50 | Diman.C50_factors | propext, Classical.choice, Quot.sound |
| C50 | Diman.C50_text | propext, Classical.choice, Quot.sound |
| C50 | Diman.C50_operators | propext, Classical.choice, Quot.sound |
| C50 | Diman.C50_functions | propext, Classical.choice, Quot.sound |
| C50 | Diman.C50_values | propext, Classical.choice, Quot.sound |
| C50 | Diman.C50_limit | propext, Classical.choice, Quot.sound |
| C50 | Diman.C50_strict | propext, Classical.choice, Quot.sound |
| C51 | Diman.C51_accurate | propext, Classical.choice, Quot.sound |
| C51 | Diman.C51_accurate_system | propext, Classical.choice, Quot.sound |
| C51 | Diman.C51_conversion | propext, Classical.choice, Quot.sound |
| C51 | Diman.C51_si_conversion | propext, Classical.choice, Quot.sound |
| C51 | Diman.C51_sum | propext, Classical.choice, Quot.sound |
| C52 | Diman.C52_extension | propext, Classical.choice, Quot.sound |
| C52 | Diman.C52_removal | propext, Classical.choice, Quot.sound |
| C52 | Diman.C52_add_constant | propext, Classical.choice, Quot.sound |
| C52 | Diman.C52_add_unit | propext, Classical.choice, Quot.sound |
| C52 | Diman.C52_add_dimension | propext, Classical.choice, Quot.sound |
| C52 | Diman.C52_add_base_unit | propext, Classical.choice, Quot.sound |
| C53 | Diman.C53_compare | propext, Classical.choice, Quot.sound |
| C53 | Diman.C53_min_max | propext, Classical.choice, Quot.sound |
| C53 | Diman.C53_clamp | propext, Classical.choice, Quot.sound |
| C53 | Diman.C53_add_sub | propext, Classical.choice, Quot.sound |
| C53 | Diman.C53_mul_div | propext, Classical.choice, Quot.sound |
| C53 | Diman.C53_units | propext, Classical.choice, Quot.sound |
| C53 | Diman.C53_si | propext, Classical.choice, Quot.sound |
| C53 | Diman.C53_laws | propext, Classical.choice, Quot.sound |
| C54 | Diman.C54_write_out | propext, Classical.choice, Quot.sound |
| C54 | Diman.C54_name_parts | propext, Classical.choice, Quot.sound |
| C54 | Diman.C54_parentheses | propext, Classical.choice, Quot.sound |
| C55 | Diman.C55_resolution | propext, Quot.sound |
| C55 | Diman.C55_monotone | propext, Quot.sound |
| C55 | Diman.C55_storage_features | propext, Quot.sound |
| C55 | Diman.C55_additive | propext, Classical.choice, Quot.sound |
| C55 | Diman.C55_documented | propext, Classical.choice, Quot.sound |
| C55 | Diman.C55_closed | propext, Classical.choice, Quot.sound |
| C55 | Diman.C55_refused | propext |
| C55 | Diman.C55_no_std | propext, Classical.choice, Quot.sound |
| C56 | Diman.C56_system | propext, Classical.choice, Quot.sound |
| C56 | Diman.C56_system_rational | propext, Classical.choice, Quot.sound |
| C56 | Diman.C56_syntax | propext, Classical.choice, Quot.sound |
| C56 | Diman.C56_no_panic | propext, Classical.choice, Quot.sound |
| C56 | Diman.C56_types | propext, Classical.choice, Quot.sound |
| C56 | Diman.C56_operators | propext, Classical.choice, Quot.sound |
| C56 | Diman.C56_functions | propext, Classical.choice, Quot.sound |
| C56 | Diman.C56_values | propext, Classical.choice, Quot.sound |
| C56 | Diman.C56_text | propext, Quot.sound |
| C56 | Diman.C56_text_rational | propext, Classical.choice, Quot.sound |
| C56 | Diman.C56_modulo | propext, Classical.choice, Quot.sound |
| C56 | Diman.C56_modulo_types | propext, Classical.choice, Quot.sound |
| C56 | Diman.C56_wraps | propext, Classical.choice, Quot.sound |
| C56 | Diman.C56_wraps_types | propext, Classical.choice, Quot.sound |
| C57 | Diman.C57_round_trip | propext, Classical.choice, Quot.sound |
| C57 | Diman.C57_printed | propext, Classical.choice, Quot.sound |
| C57 | Diman.C57_special | propext, Classical.choice, Quot.sound |
| C57 | Diman.C57_accepts | propext, Classical.choice, Quot.sound |
| C57 | Diman.C57_reads | propext, Classical.choice, Quot.sound |
| C57 | Diman.C57_reads_special | propext, Classical.choice, Quot.sound |
| C58 | Diman.C58_root_of_square | propext, Classical.choice, Quot.sound |
| C58 | Diman.C58_exact | propext, Classical.choice, Quot.sound |
| C58 | Diman.C58_monotone | propext, Classical.choice, Quot.sound |
| C58 | Diman.C58_length | propext, Classical.choice, Quot.sound |
| C58 | Diman.C58_axis_length | propext, Classical.choice, Quot.sound |
| C58 | Diman.C58_underflow | propext, Classical.choice, Quot.sound |
| C59 | Diman.C59_reading | propext, Classical.choice, Quot.sound |
| C59 | Diman.C59_upgrade | propext, Classical.choice, Quot.sound |
| C59 | Diman.C59_saved | propext, Classical.choice, Quot.sound |
| C59 | Diman.C59_not_backward | propext, Classical.choice, Quot.sound |
| C60 | Diman.C60_rebase | propext, Classical.choice, Quot.sound |
| C60 | Diman.C60_conversions | propext, Classical.choice, Quot.sound |
| C60 | Diman.C60_programs | propext, Classical.choice, Quot.sound |
| C60 | Diman.C60_texts | propext, Classical.choice, Quot.sound |
| C61 | Diman.C61_renaming | propext, Classical.choice, Quot.sound |
| C61 | Diman.C61_accepted_iff | propext, Classical.choice, Quot.sound |
| C61 | Diman.C61_values | propext, Classical.choice, Quot.sound |
| C61 | Diman.C61_reading | propext, Classical.choice, Quot.sound |
| C61 | Diman.C61_printing | propext, Classical.choice, Quot.sound |
| C61 | Diman.C61_print_depends_on_names | propext, Classical.choice, Quot.sound |
| C62 | Diman.C62_text_is_code | propext, Classical.choice, Quot.sound |
| C62 | Diman.C62_text_is_code_rational | propext, Classical.choice, Quot.sound |
| C62 | Diman.C62_si | propext, Classical.choice, Quot.sound |
| C62 | Diman.C62_si_rational | propext, Classical.choice, Quot.sound |
| C63 | Diman.C63_si | propext, Classical.choice, Quot.sound |
| C63 | Diman.C63_si_rational | propext, Classical.choice, Quot.sound |
| C64 | Diman.C64_unambiguous | propext, Classical.choice, Quot.sound |
| C64 | Diman.C64_one_meaning | propext, Classical.choice, Quot.sound |
| C64 | Diman.C64_si | propext, Classical.choice, Quot.sound |
| C64 | Diman.C64_si_reads | propext, Classical.choice, Quot.sound |
| C64 | Diman.C64_si_rational | propext, Classical.choice, Quot.sound |
| C64 | Diman.C64_si_single_rational | propext, Classical.choice, Quot.sound |
| C64 | Diman.C64_si_reads_rational | propext, Classical.choice, Quot.sound |
| C64 | Diman.C64_si_single | propext, Classical.choice, Quot.sound |
| C65 | Diman.C65_legal | propext, Quot.sound |
| C65 | Diman.C65_meaning | propext, Quot.sound |
| C66 | Diman.C66_meaning | propext, Classical.choice, Quot.sound |
| C66 | Diman.C66_same | propext, Classical.choice, Quot.sound |
| C66 | Diman.C66_cancel | propext, Classical.choice, Quot.sound |
| C66 | Diman.C66_exists | propext, Classical.choice, Quot.sound |
| C67 | Diman.C67_no_conflict | propext, Classical.choice, Quot.sound |
| C67 | Diman.C67_systems_coexist | propext, Quot.sound |
| C67 | Diman.C67_legal | propext, Classical.choice, Quot.sound |
| C67 | Diman.C67_supported | propext, Classical.choice, Quot.sound |
| C67 | Diman.C67_nested | propext, Quot.sound |
| C68 | Diman.C68_dimensioned | propext, Classical.choice, Quot.sound |
| C68 | Diman.C68_dimensionless | propext, Classical.choice, Quot.sound |
| C68 | Diman.C68_additive | propext, Classical.choice, Quot.sound |
| C68 | Diman.C68_not_additive | propext, Classical.choice, Quot.sound |
| C68 | Diman.C68_functions | propext, Classical.choice, Quot.sound |
| C69 | Diman.C69_instances | propext, Classical.choice, Quot.sound |
| C69 | Diman.C69_programs | propext, Classical.choice, Quot.sound |
| C69 | Diman.C69_functions | propext, Classical.choice, Quot.sound |
| C69 | Diman.C69_linear | propext, Classical.choice, Quot.sound |
| C69 | Diman.C69_sizeless | propext, Classical.choice, Quot.sound |
| C69 | Diman.C69_only_zero | propext, Classical.choice, Quot.sound |
| C69 | Diman.C69_refused | propext, Classical.choice, Quot.sound |
| C69 | Diman.C69_not_simplified | propext, Classical.choice, Quot.sound |
| C70 | Diman.C70_no_mixing | propext, Classical.choice, Quot.sound |
| C70 | Diman.C70_conversions | propext, Classical.choice, Quot.sound |
| C70 | Diman.C70_sums | propext, Classical.choice, Quot.sound |
| C70 | Diman.C70_assign_mutable | propext, Classical.choice, Quot.sound |
| C70 | Diman.C70_between_quantities | propext, Classical.choice, Quot.sound |
| C70 | Diman.C70_value_in_mixes | propext, Classical.choice, Quot.sound |
| C70 | Diman.C70_nested | propext, Classical.choice, Quot.sound |
| C71 | Diman.C71_factors | propext, Classical.choice, Quot.sound |
| C71 | Diman.C71_agree_iff | propext, Classical.choice, Quot.sound |
| C71 | Diman.C71_pi | propext, Classical.choice, Quot.sound |
| C71 | Diman.C71_power_law | propext, Classical.choice, Quot.sound |
| C71 | Diman.C71_zero | propext, Classical.choice, Quot.sound |
| C72 | Diman.C72_terms | propext, Classical.choice, Quot.sound |
| C72 | Diman.C72_programs | propext, Classical.choice, Quot.sound |
| C72 | Diman.C72_quiet | propext, Classical.choice, Quot.sound |
| C72 | Diman.C72_terms_panic | propext, Classical.choice, Quot.sound |
| C72 | Diman.C72_stops | propext, Classical.choice, Quot.sound |
| C72 | Diman.C72_panic | propext, Classical.choice, Quot.sound |
| C72 | Diman.C72_float | propext, Classical.choice, Quot.sound |
| C73 | Diman.C73_precision | propext, Classical.choice, Quot.sound |
| C73 | Diman.C73_special | propext, Classical.choice, Quot.sound |
| C73 | Diman.C73_width | propext, Classical.choice, Quot.sound |
| C73 | Diman.C73_options | propext, Classical.choice, Quot.sound |
| C73 | Diman.C73_default | propext, Classical.choice, Quot.sound |
| C73 | Diman.C73_read_back_int | propext, Classical.choice, Quot.sound |
| C73 | Diman.C73_read_back_rational | propext, Classical.choice, Quot.sound |
| C73 | Diman.C73_si | propext, Classical.choice, Quot.sound |
| C74 | Diman.C74_terms | propext, Classical.choice, Quot.sound |
| C74 | Diman.C74_programs | propext, Classical.choice, Quot.sound |
| C74 | Diman.C74_dimensions | propext, Classical.choice, Quot.sound |
| C74 | Diman.C74_float | propext, Classical.choice, Quot.sound |
| C75 | Diman.C75_same_outcome | propext, Classical.choice, Quot.sound |
| C75 | Diman.C75_float_iff | propext, Classical.choice, Quot.sound |
| C75 | Diman.C75_vector_iff | propext, Classical.choice, Quot.sound |
| C75 | Diman.C75_number_iff | propext, Classical.choice, Quot.sound |
| C75 | Diman.C75_other | propext, Classical.choice, Quot.sound |
| C75 | Diman.C75_expected | propext |
| C75 | Diman.C75_blame | propext, Classical.choice, Quot.sound |
| C75 | Diman.C75_message | propext, Classical.choice, Quot.sound |
| C76 | Diman.C76_cut_refused | propext, Classical.choice, Quot.sound |
| C76 | Diman.C76_si | propext, Classical.choice, Quot.sound |
| C76 | Diman.C76_not_dimensionless | propext, Classical.choice, Quot.sound |
| C76 | Diman.C76_needs_safe | propext, Classical.choice, Quot.sound |
| C77 | Diman.C77_history | propext, Classical.choice, Quot.sound |
| C77 | Diman.C77_torn | propext, Classical.choice, Quot.sound |
| C77 | Diman.C77_type | propext, Classical.choice, Quot.sound |
| C77 | Diman.C77_migration | propext, Classical.choice, Quot.sound |
| C77 | Diman.C77_no_other | propext, Classical.choice, Quot.sound |
| C77 | Diman.C77_si | propext, Classical.choice, Quot.sound |
| C78 | Diman.C78_never_misread | propext, Classical.choice, Quot.sound |
| C78 | Diman.C78_dimension | propext, Classical.choice, Quot.sound |
| C78 | Diman.C78_torn | propext, Classical.choice, Quot.sound |
| C78 | Diman.C78_delivered | propext, Classical.choice, Quot.sound |
| C78 | Diman.C78_needs_common | propext, Classical.choice, Quot.sound |
| C79 | Diman.C79_rounding_only | propext, Classical.choice, Quot.sound |
| C79 | Diman.C79_systems | propext, Classical.choice, Quot.sound |
| C79 | Diman.C79_plain | propext, Classical.choice, Quot.sound |
| C79 | Diman.C79_branching | propext, Classical.choice, Quot.sound |
| C79 | Diman.C79_branching_systems | propext, Classical.choice, Quot.sound |
| C79 | Diman.C79_comparison | propext, Classical.choice, Quot.sound |
| C80 | Diman.C80_accepted_iff | propext, Classical.choice, Quot.sound |
| C80 | Diman.C80_unique | propext, Classical.choice, Quot.sound |
| C80 | Diman.C80_solution | propext, Classical.choice, Quot.sound |
| C80 | Diman.C80_exactly | propext, Classical.choice, Quot.sound |
| C80 | Diman.C80_macro | propext, Classical.choice, Quot.sound |
| C80 | Diman.C80_macro_rational | propext, Classical.choice, Quot.sound |
| C80 | Diman.C80_macro_exactly | propext, Classical.choice, Quot.sound |
| C80 | Diman.C80_si | propext, Classical.choice, Quot.sound |
| C80 | Diman.C80_si_rational | propext, Classical.choice, Quot.sound |
| C81 | Diman.C81_remaining | propext, Classical.choice, Quot.sound |
| C81 | Diman.C81_named | propext, Classical.choice, Quot.sound |
| C81 | Diman.C81_wellFormed | propext, Classical.choice, Quot.sound |
| C82 | Diman.C82_merge | propext, Classical.choice, Quot.sound |
| C82 | Diman.C82_merge_int | propext, Classical.choice, Quot.sound |
| C82 | Diman.C82_items | propext, Classical.choice, Quot.sound |
| C82 | Diman.C82_all | propext, Classical.choice, Quot.sound |
| C83 | Diman.C83_sound | propext, Classical.choice, Quot.sound |
| C83 | Diman.C83_panics_iff | propext, Classical.choice, Quot.sound |
| C83 | Diman.C83_plain | propext, Classical.choice, Quot.sound |
| C83 | Diman.C83_symbol_in | propext, Classical.choice, Quot.sound |
| C83 | Diman.C83_generated | propext, Classical.choice, Quot.sound |
| C83 | Diman.C83_tokens | propext, Classical.choice, Quot.sound |
| C83 | Diman.C83_tokens_raw | propext, Classical.choice, Quot.sound |
