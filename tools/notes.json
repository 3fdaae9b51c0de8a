{
 "C01": {
  "status": "partial",
  "note": "Exact for + - neg * and division by non-zero; overflow refused; but division by the exponent zero is NOT refused by the code (C01_div_by_zero_not_refused), so the full statement is false."
 },
 "C02": {
  "status": "partial",
  "note": "Proved for all computation histories with positive literal denominators and positive divisors; refuted in general by the counterexample theorems (sign not normalised)."
 },
 "C03": {
  "status": "partial",
  "note": "Exact characterisation of the doubles that survive the round trip, with and without feature std; the full statement is false of the code (NaN becomes infinity; with std |x| < 2^-971 becomes zero, without std subnormals do), all refuted by theorem."
 },
 "C06": {
  "note": "For both exponent types (integer and rational), any expression."
 },
 "C44": {
  "note": "Magnitudes in the storable range (normal doubles of absolute value at least 2^-971, and zero); the soft-float is proved to round within half an ulp. Holds for the factors of std and no_std builds. C44_f32_widens, C44_f32_operators: the detour of the f32 operators through f64 loses nothing (infinities and subnormals included)."
 },
 "C07": {
  "note": "For all templates, any exponent type and magnitude arithmetic; side condition only excludes exponent literals n/0 (proved automatic for integer exponents)."
 },
 "C08": {
  "note": "All permutations of the statements of each kind; the generated lists are literally equal, base dimension list equal up to order."
 },
 "C09": {
  "note": "Both directions, any dependency graph; distinct names assumed for the iff (C11 reports the others)."
 },
 "C10": {
  "note": "Complete: the generated names are a permutation of the promised ones."
 },
 "C14": {
  "status": "partial",
  "note": "The full iff is false of the code: a subset comparison lets `unit foo: Length = meters*seconds` through (C14_not_enforced) and rejects an explicit-zero annotation (C14_false_alarm). The exact condition the code enforces is proved (…_partial)."
 },
 "C39": {
  "status": "partial",
  "note": "No false reports and no silent acceptance are proved in full; completeness is false of the code: only the first undefined identifier of each definition is reported (C39_second_not_reported). Exact characterisation proved."
 },
 "C21": {
  "status": "partial",
  "note": "Proved for expressions and whole programs (assignments, branches, loops) of the checked API, all operators and functions, any scales, exact arithmetic, except two families of quotients (unit/quantity, number/unit) for which the property is refuted by theorem. User-defined functions other than functions of plain values are not modelled."
 },
 "C23": {
  "status": "partial",
  "note": "Products: values and dimensions proved in all cases. Quotients: proved except unit/quantity and number/unit, which the generated code gets wrong (C23_unit_div_quantity_wrong, C23_number_div_unit_wrong)."
 },
 "C24": {
  "status": "partial",
  "note": "Value proved for a unit of the same dimension; the compile-time rejection of other dimensions is false of the code (C24_refuted)."
 },
 "C26": {
  "status": "partial",
  "note": "Proved for accepted systems in which every base dimension has a base unit and field names are distinct; without a base unit the generated code panics (C26_missing_base_unit_refuted)."
 },
 "C27": {
  "status": "partial",
  "note": "Proved for all dimensions with integer exponents in the i32 range; false of the code for fractional exponents and exponents beyond i32 (both refuted by theorem). C27_core_int_partial and C27_core_rational_partial are about IEEE floats and the text core prints and reads for them (Model/CoreText), with no assumption about text."
 },
 "C28": {
  "status": "partial",
  "note": "The iff, dimension and value parts are proved for every string; 'never a panic' is false of the code (C28_overflow_refuted: i64 overflow), C28_no_panic gives an explicit bound under which it never panics."
 },
 "C29": {
  "note": "All numbers presented by the data format as i64/u64/f64, and strings consisting of one number; vectors never accept a bare number."
 },
 "C30": {
  "status": "partial",
  "note": "Acceptance iff and wrong-count rejection for every string; round trip for integer exponents in the i32 range (beyond that false, as for C27)."
 },
 "C04": {
  "status": "proved",
  "note": "Print/parse round trip, left associativity, juxtaposition and binding of ^ for all expressions, over token trees (syn behaviour of peek/parse is modelled, see DESIGN.md)."
 },
 "C05": {
  "status": "proved",
  "note": "Acceptance iff grammar, over all token-tree sequences, with unique readings; for unit/constant and dimension right-hand sides, integer and rational exponents."
 },
 "C37": {
  "status": "proved",
  "note": "Unit statements: iff with the grammar plus explicit rejection theorems. C37_ignored_attributes records that on other statements argument-less attributes are silently ignored."
 },
 "C41": {
  "status": "partial",
  "note": "Integer literals: exactly 1. Decimal literals are compared after rounding to a double, so the claim is false for literals that round to 1.0 (C41_not_exactly_one); the exact accepted interval is proved."
 },
 "C42": {
  "status": "proved",
  "note": "Whole input: iff with the grammar, unique reading, print/parse round trip, and syntax error iff no reading. Token trees are the input; the Rust lexer is modelled only as far as the examples need (Model/Lexer)."
 },
 "C36": {
  "status": "proved",
  "note": "The input is the verbatim text of src/si.rs through lexer, parser and resolver; one-pass kernel check proved sound w.r.t. the code's algorithm, for both exponent types and for arbitrary magnitudes."
 },
 "C45": {
  "status": "proved",
  "note": "Resolution commutes with forgetting the numbers."
 },
 "C40": {
  "status": "proved",
  "note": "Every iteration over a HashMap is a nondeterministic choice (Spec/HashOrder.lean); any two outcomes agree. Order of fields inside generated struct expressions and order of errors may differ; their meaning does not."
 },
 "C46": {
  "status": "proved",
  "note": "Exact values and the code's doubles, with and without std (34 instead of 17 units in the last place without) and with rational-dimensions. The tables (Spec/SiTable.lean) are transcribed by hand from the SI brochure. For the rational-dimensions build (C46_si_rational_float) the platform's powf is assumed accurate to 3/4 ulp (PowfAccurate, Spec/RealEstimate.lean); C46_si_rational_names needs no assumption."
 },
 "C47": {
  "status": "proved",
  "note": "inRange (every intermediate value and power within 2^-900..2^900) is computed by the same run. Integer build: powi of compiler-rt (std) or of num-traits (no_std, powers cost twice), no assumption. rational-dimensions build (C47_rational_accurate): real-valued exact factors, fractional powers, under the assumption that the platform's powf is accurate to 3/4 ulp (PowfAccurate; exists_powfAccurate shows it can be met)."
 },
 "C48": {
  "status": "proved",
  "note": "Texts of resolve/error.rs over the whole resolver; the repository's own trybuild .stderr texts are reproduced by the model (Examples/Ui.lean). C48_false_alarm shows the one case in which the two sides of a mismatch read the same (F2). C48_exactly: for distinct and defined names the list of errors is exactly that of Spec/Complaint.lean, texts, marks and notes included. F22: C48_misleading_note."
 },
 "C49": {
  "status": "proved",
  "note": "Names and modules of the generated code against a small specification of Rust's scoping (Spec/Scope.lean). F18: quantity_type/dimension_type other than Quantity/Dimension are accepted but do not compile (C49_other_names); F19: base dimension names whose snake case is a keyword, and a dimension called Exponent, likewise (C49_reserved). The macro is taken to be the only thing in its module."
 },
 "C50": {
  "status": "proved",
  "note": "Definitions, errors, panics and generated types for any arithmetic of factors; factors and text when both builds calculate alike (exact arithmetic; the float code uses powi in one build and powf in the other). Operators and functions under the condition that no exponent is i64::MIN, which cannot be dropped (C50_limit, F21)."
 },
 "C15": {
  "note": "Holds for the factors of std and no_std builds."
 },
 "C16": {
  "note": "Holds for the factors of std and no_std builds."
 },
 "C51": {
  "status": "proved",
  "note": "Assumption PlatformFns.Ieee (satisfiable: exists_ieee): sqrt correctly rounded, powi as compiled by compiler-rt (std) or num-traits (no_std); + - * / are the model's correctly rounded operations. Calculations with cbrt, transcendental functions and comparisons have no book, so nothing is claimed of them."
 },
 "C52": {
  "status": "proved",
  "note": "Extension, removal and the four kinds of additions are six theorems; the exponents of an added definition are computed by Expr.dimsIn, which follows the order of the code because exponents of HashMaps are compared up to order (see C14)."
 },
 "C53": {
  "status": "proved",
  "note": "About the model's IEEE arithmetic (round to nearest, ties to even), which is part of the trusted base; no accuracy assumption on powi/sqrt is used."
 },
 "C54": {
  "status": "proved",
  "note": "C54_write_out, C54_name_parts, C54_parentheses: for every arithmetic of factors (MagOps), so also for IEEE floats bit for bit."
 },
 "C55": {
  "status": "proved",
  "note": "C55_resolution, C55_monotone, C55_storage_features, C55_additive, C55_documented, C55_closed, C55_refused; C55_no_std records finding F23 (serde, or hdf5 with vectors, without std generates code that names std)."
 },
 "C56": {
  "status": "proved",
  "note": "C56_system(_rational), C56_syntax, C56_types, C56_operators, C56_functions, C56_values, C56_text(_rational): whatever works in a dev build is the same in a release build. C56_no_panic; C56_modulo, C56_modulo_types: what the release build does beyond that; C56_wraps, C56_wraps_types record finding F24."
 },
 "C57": {
  "status": "proved",
  "note": "About the model of core's Display and FromStr (documented result: shortest digits, correctly rounded reading; not the Grisu/Eisel-Lemire algorithms). C57_reads is for exponents below 655360 in absolute value, beyond which core's parser saturates."
 },
 "C58": {
  "status": "proved",
  "note": "sqrt is taken to be correctly rounded (PlatformFns.NearestSqrt, as IEEE 754 and core document it; it is a platform instruction). The bound on underflow is needed: C58_underflow."
 },
 "C59": {
  "status": "proved",
  "note": "C59_not_backward refutes the converse (finding F25)."
 },
 "C60": {
  "status": "proved",
  "note": "Exact real conversion factors (exactReal). C60_programs is about the programs for which C21 holds (FaithfulCall)."
 },
 "C61": {
  "status": "proved",
  "note": "C61_printing needs NoTies; C61_print_depends_on_names shows that it does."
 },
 "C62": {
  "status": "proved",
  "note": "The factor must be Storable (at least 2^-971 in absolute value, or zero; finding F8 otherwise). With rational-dimensions powf(x, 1) = x is assumed of the platform. Vectors: the no-panic bound of C30 limits the length of the text."
 },
 "C63": {
  "status": "proved",
  "note": "Core's number text as modelled (CoreText). C63_si: integer exponents; the only assumption on the platform is powf(1, y) = 1. C63_si_rational: rational exponents; powf is assumed accurate to 3/4 ulp with powf(x, 1) = x and powf(1, y) = 1; reading back is for integer exponents (F6)."
 },
 "C64": {
  "status": "proved",
  "note": "C64_si, C64_si_single, C64_si_reads: integer exponents, with and without std; C64_*_rational: rational exponents, powf assumed accurate to 3/4 ulp. C64_si*: size for double-precision storage, C64_si_single*: for single precision, acceptance for all storage types. That the accepted texts consist of table symbols is C64_si; that the declared ones are accepted is C64_si_reads; sizes assume nothing comes near overflow/underflow (Comfortable)."
 },
 "C65": {
  "status": "proved",
  "note": "The rules of Rust are stated in Spec/ImplLegal.lean (E0207, E0117/E0210, E0507, trait signatures, generic_const_exprs clauses). The unit impls of unit_type.rs are fixed text without case distinctions and are not repeated here."
 },
 "C66": {
  "status": "proved",
  "note": "Both exponent representations. Whether an inner type compiles depends on overflow of exponents (C66_exists), so the equalities are for types that compile."
 },
 "C67": {
  "status": "proved",
  "note": "Types stored in quantities range over all types not themselves made of quantities and units; C67_nested shows that the restriction is needed for a statement about headers alone (finding F29). Where clauses and lifetimes are left out (for the operators they are in C65)."
 },
 "C68": {
  "status": "proved",
  "note": "Inherent methods only (methods of traits are not modelled). C68_functions shows that the function table used in C21, C24 and C55 is that of the generated blocks. C68_not_additive records finding F30."
 },
 "C69": {
  "status": "proved",
  "note": "Numbers are exact as in C21, calls that bypass the unit system and the wrong quotients of C23 are excluded as in C21 (GenericCall). Exponents of instances are exact; an instance whose exponents overflow is a compile error (C03). rustc's equality of dimension expressions is taken to be equality of expressions after evaluating those without parameters; a smaller equality accepts fewer programs, for which the theorems hold a fortiori."
 },
 "C70": {
  "status": "proved",
  "note": "Headers of the generated blocks (Model/Impls, where clauses left out, which can only make more relations hold) with core's blanket implementations. The first type must not itself store types of unit systems (C70_nested). C70_value_in_mixes is the exception of finding F32."
 },
 "C71": {
  "status": "proved",
  "note": "Exact arithmetic and the calls of C21 (FaithfulCall): without the functions that bypass the unit system and the wrong quotients of C23. Functions with vectors as arguments (&mut Vec) are in C21, not here; C71_pi and C71_power_law are for floating-point arguments with plain values beside them, C71_factors and C71_zero for arguments of all types."
 },
 "C72": {
  "status": "proved",
  "note": "For every arithmetic in which clamp asserts that its bounds are in order: exact numbers and, C72_float, f32/f64 with rounding, infinities and NaN. The bound on iterations and calls stands for time; stack overflow and running out of memory are not modelled."
 },
 "C73": {
  "status": "proved",
  "note": "Assumes nothing about core's text except the model of flt2dec's documented results (exact fixed-point rounding with ties to even, as in core since 1.67). The flags 0, # and x? and the LowerExp/UpperExp forms are left out (the generated Debug has none of the latter). Reading back has the hypotheses of C27 (base units exist, integer exponents in the range of i32)."
 },
 "C74": {
  "status": "proved",
  "note": "The plain program of a unit divided by a quantity is the one the generated code computes, quantity by factor, which is not the quotient (C23, F3). Values, not machine code: what the compiler makes of the wrapper types is not modelled. Functions are those of C32; allocation and stack are not modelled."
 },
 "C75": {
  "status": "proved",
  "note": "Runs that panic (overflow of an exponent, C30/F15) give no error and are excluded. What serde prints for an unexpected value (`Unexpected`) is a parameter; the texts of core's ParseFloatError are core's. C75_message compares two failures for the same storage type and unit system."
 },
 "C76": {
  "status": "proved",
  "note": "For dimensions with integer exponents (others are written in a form that cannot be read, C27/F6). C76_not_dimensionless: nothing marks the end of a dimensionless text (F33). C76_needs_safe: without tear-safe symbols a cut symbol can be another unit of the same dimension. C76_si: the generated code of the SI, with the soft-float model, for texts below 2^29 characters."
 },
 "C77": {
  "status": "proved",
  "note": "The store, its events and crashes are the user's (Spec/Archive.lean); reading and writing are the generated Serialize and Deserialize. Versions grow by adding statements (C52); a rollback can fail (C59_not_backward). Torn records: dimension nonzero, all versions tear-safe. C77_si: the SI is a possible beginning."
 },
 "C78": {
  "status": "proved",
  "note": "The network is the user's (Spec/Network.lean); reading and writing are the generated Serialize and Deserialize. An older node may refuse a message (C59_not_backward); it never misreads it. C78_needs_common: without a common extension the claim is false (F34)."
 },
 "C79": {
  "status": "proved",
  "note": "C79_rounding_only, C79_systems, C79_plain: calculations without conditionals. C79_comparison: results further apart than the error bounds compare the same way in both systems, as their exact values do (nearer ones may go either way after rounding). C79_branching: programs with conditionals (Spec/Branching.lean) none of whose comparisons is that close (C79_branching_systems: with the books that the macro's own arithmetic yields). Calls are the faithful ones of C21 (F3, F4, F14 concern the others). Nothing is claimed of cbrt, ln, sin and so on, whose library accuracy is unspecified: the book of such a result is not in order. The hypothesis that the exact factors differ by the scale of the dimension is what C60_rebase proves for rebased systems. C79_rounding_only: books given; C79_systems: the books are those the macro's own arithmetic yields (C51); C79_plain: dimensionless results."
 },
 "C80": {
  "status": "proved",
  "note": "Unresolved.WellFormed (Spec/WellFormed.lean) speaks of the statements as written, not of the expansion, the resolver or its errors. The clause on annotations is the code's rule; C14 and F1, F2 say where it differs from equality. C80_accepted_iff: the equivalence (integer or rational exponents, on runs without overflow); C80_unique, C80_solution: the equations have exactly one solution and the generated items have it; C80_exactly: with integer exponents no hypothesis is left: accepted iff well formed and the equations have a solution with no step of its computation outside i64; C80_macro, C80_macro_rational, C80_macro_exactly: the same from the tokens (rational exponents: if no denominator written is zero or negative). C80_si, C80_si_rational: the instance src/si.rs, for any numbers."
 },
 "C81": {
  "status": "proved",
  "note": "C81_remaining: any innocent part is accepted alone, and its items are among those computed in the faulty run. C81_named: the converse formulation. C81_wellFormed: in terms of the statements (C80). The part must be self-contained: what it mentions, in definitions and annotations, is defined in it. Of a wrong annotation the report names the annotation, not the annotated item; Innocent.annotations says that. The reports on the type declarations (typeNone, typeMultiple) are about no name: the part has one of each."
 },
 "C82": {
  "status": "proved",
  "note": "C82_merge_int: two extensions, integer exponents, no further hypothesis. C82_merge: any exponents, on runs without overflow. C82_all: any number of extensions. C82_items: exactly the items of the two. Unresolved.Apart (Spec/Merge.lean) speaks of the statements as written."
 },
 "C83": {
  "status": "proved",
  "note": "C83_tokens: for every invocation, given as tokens, none of whose identifiers is raw, making identifiers never panics. C83_tokens_raw: with raw identifiers the outcome is that of the model without these panics, or a panic for one of the two reasons. C83_generated: in every accepted run all names and symbols in the generated definitions are identifiers, the fields plain ones (that a field may be a keyword is F19). C83_plain: as C83_tokens, for the statements as read. C83_panics_iff: exactly when it panics with them (F26). C83_sound: where it does not panic the run is runUnitSystem, which the other theorems are about. C83_symbol_in: the symbol `in` can be had as r#in, but without prefixes. Non-ASCII characters count as XID_Start."
 }
}