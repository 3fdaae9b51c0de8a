# A Lean 4 model of Tehforsch/diman

`diman` is a procedural macro (`unit_system!`) plus a small runtime library. A user relies on three layers, and the
model follows them:

1. **Library arithmetic** (`crates/diman_lib`): rational exponents (`Ratio`), conversion factors (`Magnitude`, a decoded
   `f64`), the runtime unit table.
2. **The macro's front end** (`crates/diman_unit_system/src/{parse,types,resolve,dimension_math}`): source text → token
   trees → statements → expanded units → resolved dimensions, factors and diagnostics.
3. **What the generated code does** (`.../codegen`): the `Dimension` type, operators, units, float and vector methods,
   `Debug`, serde, MPI / HDF5 / rand glue. Generated Rust is modelled by its meaning: a type `Quantity<S, D>` is a pair of a
   storage type and an exponent vector, an `impl` header is a typing rule, a method body is a function on stored values.

## Conventions

* Strings and identifiers are `List Char` (`Str`). The order of a `BTreeMap<Ident, _>` is lexicographic by code point, which
  is Rust's UTF-8 byte order.
* A Rust panic, a failed const evaluation or an integer overflow is `none`. Overflow is *checked* (the
  dev profile, in the macro and in the `const fn`s of the generated code). In the release profile both wrap: `Model/Release` has
  the same code with wrapping exponents, and C56 relates the two. Assumed there: `overflow-checks` is off in the release profile
  for the proc macro (cargo's default for build dependencies of that profile) and for `const fn`s, also when they are evaluated at
  compile time (rustc forces checks only in bodies of `const` and `static` items).
* A syntax error is `MacroResult.syntaxError`; a reported diagnostic is a `Diag` value in a list; *accepted* means: read
  without syntax error, no panic, empty list of diagnostics (`Spec/Resolve.lean`).
* `HashMap`s are association lists. The functions of the model walk them in one fixed order; `Spec/HashOrder.lean` gives the
  same resolver with an arbitrary order at every walk, and C40 proves that the order makes no difference.
* `f64`/`f32` are a soft-float (sign and magnitude bits, round-to-nearest-even defined over `ℚ`, a single NaN). `powi` is the
  compiler-rt loop where its value matters (`rtLib`), and without feature `std` the loop of num-traits (`ntLib`); `buildLib std` is
  the one or the other. `powf`, `sqrt`, `sin`, … are parameters.
* The model is generic over the exponent type (`Exponent E`: `Int` with `i64` checks, or `Ratio` for feature
  `rational-dimensions`) and over the arithmetic of conversion factors (`MagOps E M`). Statements about exact values take
  `M = ℚ`, statements about the code take `M = Magnitude` with the soft-float.

## Modules of `lean/Verif`

`Model/*` — the code, each definition citing the file and lines of `/repo` it models.

| module | code |
|---|---|
| `Str`, `Int64`, `Storage` | strings, checked integers, the storage types and features of `codegen/storage_types.rs` |
| `Ratio`, `Exponent` | `diman_lib/src/ratio.rs`, `dimension_exponent.rs` |
| `Float`, `Magnitude` | IEEE-754, `diman_lib/src/magnitude.rs` |
| `NumTraits` | `powi` of compiler-rt and of num-traits 0.2.17 (the `no_std` builds) |
| `Features` | the `[features]` tables and the `cfg`s that decide which functions and operators are generated (C55) |
| `Release` | ratio.rs, dimension_exponent.rs, dimension_type.rs once more, with the wrapping arithmetic of the release profile (C56) |
| `CoreText` | core's `Display`/`FromStr` for `f32`/`f64` (documented result), used by debug_trait.rs and serde.rs |
| `FmtSpec` | core's `Display` of floats with format options (documented result), as used by debug_trait.rs:64 |
| `ReadErrors` | serde.rs:33-85, 110-261 with the error messages; the derived `Debug` of the dimension type |
| `Lexer`, `SiText` | a lexer for the part of Rust's lexical grammar `src/si.rs` uses; the verbatim macro body of `src/si.rs` |
| `Parse` | `parse/mod.rs`, `parse/attributes.rs` over token trees |
| `Types`, `Expr`, `Snake` | `types/mod.rs`, `types/prefixes.rs`, `types/expression.rs`, `types/base_dimension.rs` |
| `Dims` | `dimension_math.rs` |
| `Resolve`, `System` | `resolve/mod.rs`, `resolve/ident_storage.rs`, `lib.rs` |
| `Messages` | `resolve/error.rs`: texts, notes and positions of all errors |
| `DimType` | `codegen/dimension_type.rs`, `codegen/dimensions.rs`, the const exponents of `units_and_constants.rs` |
| `Operators` | `codegen/num_traits/*` (the table of operator impls and their bodies) |
| `Prims`, `Api`, `SoftFloat` | `codegen/{quantity_type,unit_type,float_methods,vector_methods,generic_methods}.rs` |
| `Text`, `SoftText` | `codegen/debug_trait.rs`, `codegen/serde.rs` |
| `Descr` | `codegen/{mpi,hdf5,rand}.rs` |
| `Emit` | names and modules emitted by `codegen/mod.rs` `code_gen` and everything it calls |
| `Impls` | the headers and item names of all `impl` blocks of `codegen/*` (C67) |

`Examples/*` — sample systems used by the `example`s, and `Ui.lean`: the repository's own compile-fail tests with their expected
messages, run through lexer, parser and resolver of the model (a check of the model, not a proof of a property). `RepoTests.lean`
(generated by `tools/tests.py`, interpreter in `TestLang.lean`): 234 of the repository's own tests and documentation examples (`tests/{debug,
dimension_defs,float,serde,glam,unit_aliases,rational_dimensions,gas}`, `src/lib.rs`; SI ones in `SiTests.lean`), translated statement by statement and run through the whole model — macro
text, generated operator table, generated functions, softfloat, decimal text; all pass. A check of the model's fidelity.

`Spec/*` — small specifications that do not use the model's algorithms: dimension vectors as functions `name → ℚ`, the
grammar as an inductive relation, least solutions of definition systems, the SI tables, user programs and changes of base
units, error books. `Proofs/*` — lemmas. `Props/Cnn.lean` — the theorems named `Cnn_…`, each followed by `example`s
that meet its hypotheses with a concrete non-trivial case.

## Per property: what is modelled and how it is proved

| id | model | proof |
|----|-------|------------|
| C01 | `Ratio` over checked `Int` | value in `ℚ`; gcd loop = `Int.gcd` by strong induction; overflow ⇔ refused. Partial: F12 |
| C02 | same | lowest-terms invariant over all computation histories, uniqueness of reduced fractions. Partial: F5 |
| C03 | `Float`, `Magnitude` | decode/encode identity exactly on the storable doubles. Partial: F8 |
| C04, C05, C37, C41, C42 | `Parse` on token trees | inductive grammar, soundness + completeness + uniqueness; print/parse round trip. C41 partial: F17 |
| C06 | `Dims`, `Expr` | structural induction; pointwise semantics in `ℚ` |
| C07–C13, C39 | `Resolve` | invariant of the resolver loop; least fixed point; permutation invariance. C39 partial: F10 |
| C14 | `check_type_annotations` in `Resolve` | exact condition proved, the English iff refuted. Partial: F1, F2 |
| C15, C16 | `Types` | list product; prefix table |
| C17, C18, C25 | `DimType` | componentwise, group laws, acceptance iff |
| C19 | `Snake` | explicit decoding function as left inverse |
| C20, C32, C33, C43 | `Operators`, `Api`, `Prims` | case analysis over the generated table; independent list of promised impls; C20_exactly: the operators that exist are those of the user-level table `Spec/Operators.lean`, without ambiguity |
| C21 | `Api`, `Operators`, `Spec/Program` | terms and programs by induction with a scaling relation. Partial: F3, F4, F14 |
| C22–C24 | `Api`, `SoftFloat` | round-trip algebra; rounding error of one product and one quotient. Partial: F3, F4, F14 |
| C26–C30 | `Text` | string lemmas (split, join, digits), inverse functions. Partial: F6, F7, F15, F16 |
| C31 | `Api`, `Prims` | per-component statements |
| C34, C35 | `Descr`, `RandFloat` (rand 0.8.5's `UniformFloat`) | type maps as lists of (offset, type); bounds of the sampler, first from an assumption on the float sampler (`C35_half_open`, `C35_inclusive`), then with rand's own sampler on the bit-exact floats (`C35_rand`): the rounding is monotone, so the greatest sample bounds all others; the preparation loop stops because scale zero is never too great |
| C36, C46 | `Lexer`, `SiText`, whole front end | one kernel evaluation of a checker proved sound for the code's algorithm |
| C38 | `Parse`/`Resolve` | iff |
| C40 | `Spec/HashOrder` | confluence: any two outcomes agree |
| C44 | `Float`, `Magnitude` | half-ulp rounding bound |
| C45 | `Resolve` | resolution commutes with forgetting numbers |
| C49 | `Emit`: the module tree of the generated code | Rust scoping rules in `Spec/Scope.lean`; bindings of each module computed symbolically; iff by disjointness of names; the text of `src/si.rs` shown to satisfy it (`Props/C49Si.lean`) |
| C50 | the macro at exponent types `Int` and `Ratio`; operators, functions, text at both | machine integers as a third exponent type with homomorphisms into both; resolution commutes with homomorphisms (`Proofs/ExpMap`), grammar is monotone in the feature |
| C51 | `Api` at four primitives: floats, error books (`Spec/ErrorBook`), reals | parametricity of the generated code (`Proofs/ApiRel`): a relation preserved by the primitives is preserved by every calculation; each rounding rule from the half-ulp bound |
| C52 | resolver (`Resolve`, `System`) | the resolved table is the unique solution of the definitions (`Solution`): restrict it for deletions, insert into it for additions; template expansion by induction over prefixes and aliases |
| C53 | soft floats under the generated operators and functions | rounding to nearest is monotone (two nearest points, in a format enlarged so that nothing overflows); extended reals as specification of the order |
| C54 | expressions, resolution | an item may be exchanged for another one with the same value (the resolver's solution stays a solution with the items exchanged); new dependencies are grounded by induction on the size of the definition |
| C55 | `Model/Features`: the `[features]` table, `float_types`/`vector_types`, and which functions are generated under which `cfg`; spec `Spec/Features` (`TurnedOn`: reflexive-transitive closure of the table) | closure by case analysis on the table; monotonicity of the set of generated functions; operators through the operator table of C20 |
| C56 | `Model/Release`: `RelInt`, `RelRatio`, exponents whose arithmetic wraps; spec `Spec/Release` (the same definitions, types, calls; the exponents prescribed over the unbounded integers) | the whole macro and API are polymorphic in the exponent type: a change of exponent type that respects the arithmetic wherever the dev profile does not panic carries every result over (`Proofs/ExpLift`, `Proofs/Release`, `Proofs/ReleaseText`); modulo 2^64 by induction over the order of resolution |
| C57 | `Model/CoreText`: core's `Display` and `FromStr` of floats; spec `Spec/FloatText` (numerals by grammar, `PlainDecimal`, `ReadsAs`) | the search for digits is analysed position by position; shortest and closest by convexity of the set of numbers that round to a float; grammar in both directions; then C27's hypotheses about text are discharged (`C27_core_*`) |
| C58 | `Api`, `SoftFloat`; spec `Spec/Root`: `sqrt` picks a nearest float to the real root | the rounded square of `m·2^e` differs from it by less than `m - 1/4` units squared, so the root is within half a unit of `m` (powers of two are exact); rounding is monotone |
| C59 | `Serde` reader of two systems side by side; spec `Spec/Versions` (`SameDimension`, `KeepsSymbols`) | a word names the same unit in both tables; exponents of base dimensions are functions of the base dimension's name, so the two accumulated dimensions are one function read off two lists of base dimensions (`foldlM_both`) |
| C60 | two `Defs` over exact reals; spec `Spec/Rebase`: `TrueIn` reads the statements of one system as equations about the other | induction over `Grounded` with C07's equations; products of powers of the sizes are multiplicative in the exponents; then C21 and C28/C30 |
| C61 | the whole resolver; spec `Spec/Renaming`: renaming of statements and of `Defs` | resolved items renamed in a new sorted map solve the renamed equations, then `accepted_iff`; unit tables are permutations of each other, so lookups by symbol agree |
| C62 | `deserializeStr` against `Fn.unitMul` on IEEE floats | C28/C30 iff with the single unit power; `powi x 1 = x` in both builds, `Magnitude` round trip (C44), commutativity of rounding multiplication for vectors; SI corollary from `Proofs/SiFacts.lean`; with rational exponents `powf(x, 1) = x` is assumed of the platform |
| C63 | the SI text of C36/C46 with `debugFmt`, `serializeStr`, `deserializeStr`, core's number text (C57) | hypotheses of C26, C27, C28, C30 discharged for the SI text: checks on the parsed statements in the kernel, factors from C46; `C63_si_rational`: the same with rational exponents, the literals of the SI text being integers (`C18_literals_rational`) |
| C64 | the SI text of C36/C46 with `deserializeStr`; `Spec/SiReading.lean` says what a text means by the SI table (sizes in exact rationals) | factors of the units from C46 (roundings counted), powers by repeated squaring as in C46, product and final multiplication add roundings; acceptance from C28/C30 in the other direction with the declared prefixes checked on the parsed statements; clashes excluded by evaluating all symbols with all prefixes in the kernel; `C64_*_rational`: the same with rational exponents, where powers go through the platform's `powf` (`PowfAccurate`) |
| C65 | `Model/ImplSyn.lean`: the functions of operator_trait.rs that write the impl header, signature and where clauses, as syntax; `Spec/ImplLegal.lean`: rules of Rust | legality by evaluation per operator, generalised over the list of storage types; meaning by unfolding the where clauses for arbitrary generic arguments |
| C66 | `Spec/TypeTree.lean`: nested `Product`/`Quotient` aliases (src/lib.rs:526, 537) over the typed operators | induction over the nesting with C20_exactly for each operator |
| C67 | `Model/Impls.lean`: every generated `impl` block for given features; `Spec/Coherence.lean`: types of a program, overlap, blanket impls of other crates, rules for one block | a unification procedure (`Proofs/Unify.lean`, proved sound for all types) run by the kernel on all pairs of blocks with every feature on; smaller feature sets are sublists; several systems by ownership of types |
| C68 | `Spec/MethodCall.lean`: Rust's autoderef rule over the generated blocks of `Model/Impls.lean`, with arbitrary methods and dereferences of foreign types; the documented lists of methods | the blocks' methods are shown to be the lists; only dimensionless quantities dereference; `C68_functions` ties the function table of C21/C55 to the blocks |
| C69 | `Spec/Generic.lean`: exponents that are expressions in dimension parameters (`Sym`), type checking of generic functions as that of C21 over `Sym`, instances, scaling by one factor per parameter | maps of dimensions that commute with the generated dimension functions preserve typing and evaluation (`Proofs/Generic.lean`); instances are one such map, making the parameters new base dimensions another, which reduces scaling to C21 |
| C70 | `Spec/Mixing.lean`: which traits hold between which types in a program with several unit systems (`TraitHolds`: generated blocks of all systems, core's implementations for references and conversions) | all blocks are those of system 0 relabelled; the shapes of all headers are checked by the kernel for the greatest set of features; induction over `TraitHolds` |
| C71 | `Spec/DimAnalysis.lean`: dimensions of products of powers, factors that agree with dimensions, dimensions made from others, independent dimensions; programs as in C21 | factors that satisfy all integral relations between rational vectors are the values of a linear function (`exists_functional`: factoring through the quotient by the kernel and extending from a subspace of a rational vector space), so they come from a change of base units, for which C21 applies |
| C72 | `Spec/Panic.lean`: inductive rules saying where expressions and statements of the C21 language panic or reach the bound on iterations and calls; no rule for anything else | progress by induction on the type derivation with type soundness of operators and functions (C32), a well-typed `clamp` fails exactly for bounds that are not in order; any arithmetic whose `clamp` asserts, instances for exact numbers and soft floats; strong induction on the bound for programs; panics persist for larger bounds |
| C73 | `Model/FmtSpec.lean`: core's `Display` of floats with precision, width, alignment, fill and sign; `Debug` hands the formatter to it and writes the unit with its own format string; `Spec/FmtSpec.lean`: texts with exactly p decimals, nearest decimal | rounding to nearest-even is the best decimal; the unit text does not depend on the value's text; reading back as in C27 with blanks around the number |
| C74 | `Spec/Erase.lean`: a language of programs on plain numbers, glam vectors and factors with its own evaluator, and the map that forgets the units of a program of C21 | simulation: each generated operator (by its table entry) and function is the plain one on erased values; induction on the type derivation, strong induction on the bound for programs; any arithmetic, instance for soft floats |
| C75 | `Model/ReadErrors.lean`: the visitors of `serde.rs` again with the error given to the data format and its text; `Spec/ReadErrors.lean`: what is wrong with a text, as an inductive relation | without messages the two models agree (`C75_same_outcome`); induction over the unit words for the first wrong one; messages by prefixes and by cutting the derived `Debug` text of the dimension |
| C76 | `Text` (both directions of serde); `Spec/Torn.lean`: tear-safe symbols | the printed unit words are in decreasing order of what can be cut: a cut word is a shorter numeral, a bare or shorter symbol, or nothing, and in each case some base dimension gets another exponent (`Proofs/Torn`); a kernel-checked pass over all pairs of SI symbols with prefixes for `C76_si` |
| C77 | `Spec/Archive.lean`: a transition system of a store of texts with ghost contents; events use `serializeStr`/`deserializeStr` of the current version | invariant by induction over the history: every intact record was written by a version that the current one extends (C52, C59), every torn one is a proper initial piece of such a text (C76) |
| C78 | `Spec/Network.lean`: nodes with versions below a common one, a pool of messages with ghost contents | invariant by induction over the schedule; whatever a version reads, the common extension reads (C59), at a transported dimension; there the text has one dimension and one value |
| C79 | `Spec/CalcTyping.lean` (type checking of calculations), `Spec/ErrorBook.lean` | induction over typed calculations for scaling in exact arithmetic (C21 lemmas), then C51 for both runs and the triangle inequality; comparisons: floats nearer to the exact values than these to each other compare like them; `Spec/Branching.lean`: programs with conditionals by induction over the program |
| C80 | `Spec/WellFormed.lean` (the statements as written, independent of expansion and resolver) | the expansion is a permutation of the written definitions; each check of the resolver is empty iff its clause holds; keys of resolved dimensions are the reachable base dimensions (induction over groundedness); uniqueness of solutions by the same induction; overflow (`Proofs/Fits.lean`): evaluating an expression fails iff a step leaves i64 (structural induction), carried through the runs of the resolver as an invariant |
| C81 | `Spec/Culprits.lean`: what a report is about (`Diag.blames`), a blameless self-contained part (`Innocent`) | invariant of the resolution loop for names that occur once; the equations restricted to the part have a solution (the values in the faulty run), so the part is resolvable (C80); each check: if it reported the part alone it reports the whole |
| C82 | `Spec/Merge.lean`: statements appended, extensions that are apart | at the level of well-formedness (C80): definitions of the names of a part stay in the part, so dependency, reachability and the equations restrict; the solutions of the two parts agree on the common names (uniqueness, C80; the common part is accepted alone, C81) and glue; induction over the list of extensions |
| C83 | `Model/MakeIdent.lean`: expansion and field names again, with the panic of `Ident::new`; `Spec/RawIdent.lean`; `Model/InvokeIdents.lean`, `Spec/OccursIn.lean`: the same from tokens; `Spec/GeneratedIdents.lean`: what is generated | the two models agree or some string is refused (case analysis over prefixes and aliases); snake case keeps letters, digits, underscores and every `#` |
| C48 | `Messages` | reports ⇔ messages; sorting and printing are injective; composed with C09, C11, C14, C39 |
| C46, C47 | `Proofs/Natural`, `Proofs/Estimate`, `Proofs/RealEstimate` (fractional powers, errors on a logarithmic scale) | resolution commutes with every homomorphism of factor arithmetic; a product of code value and error book is such an arithmetic |

Every property of the list can be expressed in the model; none is marked not applicable.

## Findings

Where the English property is false of the code, the refutation is a theorem with a concrete witness and the exact
condition under which the property holds is proved under a name ending in `_partial`.

* F1/F2 (C14) annotations are compared by inclusion: `unit foo: Length = meters * seconds` passes; an annotation whose
  dimension has an explicit zero exponent is rejected although it is right.
* F3 (C21, C23) `Unit / Quantity` and `RuntimeUnit / Quantity` compute `x / factor` instead of `factor / x`.
* F4 (C21, C24) `value_in` accepts units of every dimension.
* F5 (C02) a negative denominator is not normalised; `Ratio::powi` multiplies both components.
* F6 (C27, C30) serde round trips fail for fractional exponents and for exponents beyond `i32`.
* F7 (C26) `Debug` panics for a base dimension without base unit.
* F8 (C03) NaN is stored as infinity, non-zero values below 2^-971 as zero (without `std`: subnormals only).
* F9 (C11) a duplicate is reported, but the later definition takes effect (visible only besides the error).
* F10 (C39) only the first undefined identifier of each definition is reported; the filter is a single pass.
* F11 (C37) argument-less attributes on dimension, constant and type statements are ignored silently.
* F12 (C01) division by the exponent 0 and a literal `n/0` are not refused.
* F13 an internal+rational configuration emits the path `::::` (note only).
* F14 (C21, C23) `number / unit` has the dimension of the unit instead of its inverse.
* F15 (C30) text before the opening parenthesis of a vector string is ignored.
* F16 (C28) deserialisation can overflow and panic.
* F17 (C41) dimension literals that merely round to 1.0 are accepted.
* F18 (C49) `quantity_type`/`dimension_type` names other than `Quantity`/`Dimension` are accepted, but the generated code imports the usual names and does not compile.
* F19 (C49) a base dimension whose snake-case name is a keyword (`Type`), and a dimension called `Exponent`, are accepted, but the code does not compile.
* F20 (C48) a dimension mismatch can be reported with two identical sides (C48_false_alarm, consequence of F2).
* F21 (C50) with `rational-dimensions` a quotient whose divisor has an exponent `i64::MIN` overflows although the integer build computes it (`Ratio::sub` negates first) (C50_limit).
* F22 (C48) a base unit declared for a unit is refused with the note "Units can only be defined in terms of other units and constants." (C48_misleading_note).
* F23 (C55) `serde`, and `hdf5` together with a vector type, generate code that names `std` items (`std::str::SplitWhitespace`, `std::fmt::Formatter`, `format!`, `Vec`; `Box`); without feature `std` the crate is `no_std`, so such a build (e.g. `default-features = false, features = ["f64", "si", "serde"]`) does not compile, and unlike `rational-dimensions` the combination is not refused with a message (C55_no_std).
* F24 (C56) In a release build overflow of exponents is silent: `dimension Huge = Length^4611686018427387904; dimension Wrapped = Huge^4;` panics the macro in a dev build, but is accepted in a release build, where `Wrapped` is dimensionless. The same happens to the types of products, powers and roots in the generated code (`C56_wraps`, `C56_wraps_types`).
* F25 (C59) Adding a unit of magnitude one to a unit system changes what existing quantities print and serialise as, so data written by the new version is refused by the old one (`C59_not_backward`).
* F26 (C83_panics_iff, C83_symbol_in) Raw identifiers: a unit whose name, alias or symbol is raw (`r#in`) and which has prefixes, and a base
  dimension with a raw name, panic the macro (`Ident::new("kilor#in")`, types/mod.rs:100-126; `to_snakecase`, base_dimension.rs:22-25); a raw symbol
  is printed with its `r#`. So there is no way to give a unit the symbol `in`.
* F27 (C61_print_depends_on_names) Of several units of factor one for a dimension (`hertz`, `becquerels`) `{:?}` and serialisation use the
  symbol of the one whose *name* comes first alphabetically, not the one declared first. Renaming a unit can change what is printed and stored.
* F28 (C35_rand_slow) `gen_range` on quantities goes through the default `sample_single`, so through `UniformFloat::new`, whose preparation loop
  lowers the scale one bit pattern at a time: for `1.0..` the next `f64` this takes `2^52 - 1` steps, a practical hang that `gen_range` on the bare
  floats (rand's own `sample_single`) does not have.
* F29 (C67_nested) The headers of the operators are disjoint only because quantities are not stored in quantities: `Add<Quantity<RHS, D>> for
  Quantity<LHS, D>` and `Add<S> for Quantity<S, none>` have `Quantity<Quantity<f64>>` + `Quantity<f64>` in common. rustc evidently accepts the two; this
  rests on its treatment of const parameters and where clauses, not on the headers.
* F30 (C68_not_additive) Features are not additive for method calls on dimensionless quantities: these dereference to the number, so `q.floor()` on a
  dimensionless `f64` is `f64::floor` (an `f64`) without the features `std`/`num-traits-libm` of diman and `Quantity::floor` (a quantity) with one of them;
  likewise `abs`, `min`, `max`, `clamp`, `is_nan` with the feature of the storage type. Another crate in the build that switches the feature on can break
  a program by this.
* F31 (C69_not_simplified) In a function generic in a dimension `D`, `q.squared().sqrt()` has type `Quantity<S, { D.mul(2).div_2() }>`, which is not
  `Quantity<S, D>`, and `a * b + b * a` does not type-check: dimension expressions are compared as written. A generic `hypot` cannot return `Quantity<S, D>`.
* F32 (C70_value_in_mixes) `value_in` takes units of any unit system in the program (every system implements `From<Unit<D, F>> for Magnitude`): a quantity of
  one system read out in a unit of another gives the stored number over a factor relative to other base units, without complaint.
* F33 (C76_not_dimensionless, C76_needs_safe) A serialised dimensionless quantity has no end mark: a text cut short is read as another number. With a dimension the unit
  protects it, as long as no unit symbol begins with the symbol of another unit of the same dimension (true of the SI).
* F34 (C78_needs_common) Texts carry no version: two extensions of one unit system that give a symbol to different units of the same dimension misread each other silently.
* Notes: the names `Dimension`, `Quantity`, `Unit`, `Magnitude` are hard-coded in some generated modules; `i64`
  `float_pow` truncates its exponent; a base dimension whose snake-case name is a Rust keyword gives uncompilable code.

## Trusted base

* Lean's kernel, and the three standard axioms `propext`, `Classical.choice`, `Quot.sound`. `AXIOMS.md` lists, for each
  claimed theorem, the axioms `#print axioms` reports. No axioms of our own, no compiled evaluation.
* Mathlib's definitions of `ℚ`, `ℝ`, `π`, lists, finite sums.
* The reading of the Rust source documented definition by definition.

### Assumptions about things outside the repository

They appear as hypotheses, class instances or definitions, never as axioms.

* *Storage arithmetic* (`Prims`): which operators `f32`, `f64`, `i32`, `i64`, glam's `Vec2/3`, `DVec2/3` have
  (`storageOut`) and that glam's operators act componentwise (`Raw.zip`). Float functions other than `+ - * /` and
  comparisons are parameters; where a law is needed (`sqrt` of a square, `sin`…), `IdealFns` states it over `ℚ`/`ℝ`.
* *Decimal text of floats*: C26-C30 are parametric in it (`TextPrims`, `FloatText.RoundTrips`). `Model/CoreText` models what core documents:
  `Display` without flags prints the shortest digits that read back (digit generation as in `flt2dec`'s Dragon), `FromStr` is correctly
  rounded; C57 proves that it meets the assumption. That the fast paths (Grisu, Eisel-Lemire) compute the same is core's claim. C26 holds for
  whatever text the value prints as, so also with format flags: these go to the value's own formatting, not to the unit.
* *Float library* (`FloatLib`): `powi` as in compiler-rt, and without `std` as in num-traits 0.2.17
  (`FloatCore::powi`, transcribed from its published source), where values matter, `FloatLib.Ones` (`1^n = 1`) where only that
  matters. `Literal::f64_suffixed` panics for non-finite numbers: `TextPrims.finite`.
* *MPI, HDF5* (`Spec/Descr`): a contiguous datatype of `n` elements transfers `n` elements; a type descriptor describes its
  bytes. *rand*: `UniformFloat` is transcribed from rand 0.8.5 (`Model/RandFloat`), that it respects its bounds is proved
  (`randUniformFloat_sound`); trusted is only the transcription.
* *syn*: token trees in, `Ident`/`Lit`/punctuation peeking as documented in `Model/Parse`. `Lit::parse` takes a literal,
  `true`/`false`, or `-` and a numeric literal; identifiers exclude Rust keywords (`reservedWords` in Spec/Grammar.lean spells them out); leftover tokens in a group are errors.
* *serde*: data formats deliver strings, integers or floats (`Text`); YAML/JSON syntax is not modelled.
* *powf* on conversion factors with `rational-dimensions` (`PowfAccurate`, used by C46_si_rational_float and C47_rational_accurate only): accurate to
  3/4 ulp, `x^0 = 1` (glibc states 0.52 ulp, the `libm` crate's FreeBSD code 0.70 ulp).
* *Platform arithmetic* (`PlatformFns.Ieee`, used by C51_accurate, C51_accurate_system only): `sqrt` correctly rounded, `powi` as in
  *Float library* for both formats. Nothing is claimed of `cbrt`, transcendental functions and comparisons by C51.
* *SI tables*: transcribed by hand from the SI brochure (`Spec/SiTable.lean`).

### Not modelled

* Raw identifiers are their printed strings (`r#in`); that `r#name` and `name` are the same name for rustc, and the panics of `Ident::new` outside C83, are not modelled (C83_sound: where it does not panic, nothing changes).
* rustc: type inference, coherence beyond overlap of the generated operators (C20_no_duplicates), trait selection beyond exact match of impl headers, borrow checking; macro hygiene.
* Line/column spans and rendering of diagnostics (a message marks identifiers); the wording of syntax errors.
* Expanding the macro in a module with other items of the same names (C49 takes it to be alone there).
* NaN payloads; signalling NaNs; floating-point environments other than round-to-nearest.
* Storage types other than the six; user code with generic storage; calling `value_in` with a hand-written `Magnitude`.
* User programs of C21 are expressions, local variables, assignments, conditionals, loops, vectors of quantities and recursive functions
  over the generated API and functions of plain numbers; C69 adds functions with dimensions as parameters. Traits, functions generic in the storage
  type and closures over quantities are not in the language.
