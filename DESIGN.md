# Formal model of ThermoFun: design

The source is C++ in `/repo`. The model is Lean 4 (4.33.0) with Mathlib, in `/verif/lean`.
It is written by hand from the source text; nothing in `/repo` is compiled or run.

## Layout

* `lean/Verif/Model/*.lean`  – the model: small total functions, each with a comment citing file and lines.
* `lean/Verif/Lemmas/*.lean` – helper lemmas and generated modules (parsed unit table).
* `lean/Verif/Props/*.lean`  – the property theorems with their own specifications and, next to each, an
  `example` instantiating the hypotheses on a concrete case.
* `seeded/LOG.jsonl` – mutation log: wrong variants of the model tried in a scratch copy.
* `MANIFEST.json` – property → theorem names.
* `properties.jsonl` – the property list (generated by `tools/gen_properties.py`).

## Modelling decisions

* **Numbers.** `double` is modelled by ℝ (analysis: HasDerivAt statements) or by an arbitrary field / ordered field
  (control flow), with ℚ for executable witnesses. Rounding, overflow, NaN and −0.0 are not modelled. A theorem therefore
  says what the formulas do, not what the last bits do. Where a C++ integer division or truncation
  occurs (`pow(TK,(1/2))`, `int` dimensions) it is modelled as such.
* **Undefined behaviour** (out-of-range `operator[]`, uninitialised reads, unbounded recursion) is an explicit outcome
  (`ub`, `diverge` / fuel exhaustion), different from a normal result and from a thrown exception.
* **Exceptions** are an explicit outcome (`throw`).
* **Aliasing / history** is modelled with explicit state (`Memo` cache state, engine state, memory cells for P,
  shared batch state) wherever a property speaks about histories.
* **Oracles.** Numerical sub-models not themselves modelled (the s_solmod EoS library, and in the engine every substance model) enter as universally quantified functions. The theorems then hold for whatever they compute.
  The engine (`Model/Engine.lean`) is polymorphic in its models; the models themselves are proved about separately.
* **JSON.** Records are values of an inductive type `Json` (objects as lists of keys and values sorted by key, numbers as ℚ); the text parser of
  nlohmann::json is not modelled. Readers are sequences of steps on a state, which may throw an exception of the JSON library, another one,
  or have undefined behaviour, so that what was read before a swallowed exception is kept as in the code.
* **Objects** behind `pimpl` pointers are modelled with a heap where a property is about copies (`Model/Copies.lean`), and as values elsewhere;
  `C51_values` justifies the latter.
* **Division by zero.** x/0 = 0 in Lean, and not a number or infinite in C++. Theorems about the water equations therefore exclude the critical
  density for Wagner–Pruss (a 0/0 in the non-analytical terms) and the centres r_i of part 4 of Haar–Gallagher–Kell.
* Unless a property is about uncertainty, `err` is dropped outside the ThermoScalar model.

## Per property: what is modelled and how it is proved

| id | modelled code | proof |
|----|---------------|-------|
| C01 | ThermoScalar operators over ℝ, expression AST | structural induction, `HasDerivAt` in T and P |
| C02 | status channel of the same operators | structural induction |
| C03 | err channel | non-negativity/Gaussian formulas by algebra; `*=` with a negative value refuted by witness |
| C04 | compound assignment | algebraic equality of records |
| C05–C08 | `memoize`, `memoizeN` as state machines over call sequences; recursive variant over call trees | invariants by induction over histories |
| C09 | cache + mutable environment | witness of staleness; partial: fresh keys see the current data |
| C10 | `memoizeLast` | witness; partial: from the second call on / non-default arguments |
| C11 | cache + memory cell for P | witness; partial for P ≠ 0 |
| C12–C15 | unit AST, factor, dimension, convert over the complete table, transcribed row by row | induction on AST; whole-table kernel check (`decide +kernel`) lifted |
| C16–C17 | `parseUnit` as an index/fuel function on characters with UB outcome | round trip `parse (print e)` by induction; UB witnesses |
| C18 | table rows | whole-table check against independent power definition; refuted for `bar^n`, partial elsewhere |
| C19–C20 | `fromEquation`: char-level split and coefficient extraction | round trip by induction; refuted for repeats |
| C21–C24 | `thermoPropertiesReaction_LogK_fT`, `determineMethod` over ℝ | `HasDerivAt` + field algebra; refutation for Cp→A |
| C25 | coefficient conversions | field algebra |
| C26–C27 | three density models; dispatch | `HasDerivAt` along arbitrary density functions; refutation of dispatch |
| C28–C32 | `StandardEntropyCpIntegration`, `EmpiricalCpIntegration` (interval search, multi-interval loop) | `HasDerivAt`, induction over intervals; UB witness |
| C33–C36 | pressure corrections and solid EoS | `HasDerivAt`; refutations for Berman |
| C37–C38, C72–C74 | both HKF implementations with their entries, Born coefficient, g functions | `HasDerivAt` along arbitrary w, Z, g; numeric refutations |
| C39, C75, C78–C79 | `waterThermoState`, the molar properties of the two water models | implicit differentiation along an arbitrary Helmholtz jet |
| C93, C95 | `waterHelmholtzStateWagnerPruss` with its 56 terms and coefficients | every term is a jet (a record of partial derivatives, `Lemmas/Jet.lean`); sums and products of jets are jets; limits term by term |
| C94, C95 | `waterHelmholtzStateHGK` with its five parts and coefficients | jets; the erroneous third derivatives are compared with those of a corrected record, with bounds at one state |
| C96–C97 | Akinfiev–Diamond, Anderson, Holland–Powell solute models | `HasDerivAt` and algebra; refuted for all states by comparing derivatives |
| C98 | derivatives carried by every model | closure of "carries its derivatives" under the ThermoScalar operators (`Lemmas/Carries.lean`), applied by a tactic; for gases and fluids a volume without derivatives contradicts the slope of V (`CarriedGas.lean`, `CarriedGasS.lean`, `CarriedGasK.lean`, `CarriedFluids.lean`) |
| C99–C105 | Peng–Robinson (PRSV, PR78) and SRK gas models of `s_solmod2_.cpp` | Cardano's formulas; implicit differentiation of the root; the fugacity integral; witnesses |
| C106–C108 | Birch–Murnaghan solids (Gottschalk) | Newton's method with a slope between two bounds; derivative of the integral along the solution; numeric witnesses |
| C113–C117 | CORK fluids (`TCORKcalc` of `s_solmod2_.cpp`, `GasCORK.cpp`) | closed form for corresponding states; Cardano and implicit differentiation for H2O and CO2, in kbar; numeric bounds for the refutations |
| C119–C122 | fluids of Sterner and Pitzer (`TSTPcalc` of `s_solmod2_.cpp`, `GasSTP.cpp`), array access of `GasCGF.cpp` | composition of records of derivatives (`Jet`), implicit differentiation, mean value theorem for the Newton iteration |
| C123–C125 | equation of state and properties of `WaterHGK-JNgems.cpp` (bb, base, ideal, resid, thmHGK, dimHGK, dalHGK) | Helmholtz jets term by term, implicit differentiation along a density; verified interval arithmetic (`Lemmas/Interval.lean`) evaluated by the kernel for concrete states |
| C126 | Born functions of `WaterHGK-JNgems.cpp` (`JN91`, `Born92`, `epsBrn`) | polynomial in density with coefficients in T, along a density that solves the equation of state; intervals for the witness |
| C127–C132 | density search, saturation curve, choice of states and readers of `WaterHGK-JNgems.cpp` (`Model/GemsFlow.lean`) | induction over the rounds of the loops; for concrete states the kernel follows the loops on intervals with 130 digits (`Lemmas/GemsFlowIv.lean`, `Lemmas/GemsFlowAt.lean`) |
| C135–C136 | saturation curves and start of the density search (`Model/WaterSat.lean`) | sign of the derivatives by covering the range of a polynomial with rational cells (`Lemmas/PolyCover.lean`) |
| C137–C138 | reactions in aqueous solution through the whole engine; Wagner-Pruss water with Johnson-Norton | composition of C109, C19, C39, C75, C80; real state by interval arithmetic (`Lemmas/WagnerPrussIv.lean`, `Lemmas/WagnerPrussVal.lean`) |
| C139–C140 | Newton search of the water density: carried derivatives, cost of stopping (`Props/WaterCarry.lean`, `Props/WaterSearch.lean`) | induction over the iterates with gradients; the search at 298.15 K and 1 bar in verified intervals (`Lemmas/WagnerPrussSearch.lean`) |
| C141–C143 | near-critical water of the gems code (`Model/GemsCrit.lean`, `Props/GemsCrit.lean`) | closed forms at saturation, bounds for slopes, contraction of the search for the temperature, invariants of the loop flag |
| C144–C145 | units and files of batch calculations (`Model/BatchFile.lean`, `Props/BatchFile.lean`) | the calculation of C55 with the converter of C12–C16 in place of arbitrary conversions; invariant of the streams over all programs |
| C146 | tables of `OutputToCSV` (`Model/OutputCSV.lean`, `Props/OutputCSV.lean`) | a reader of comma-separated tables as specification; invariants of streams, flags and file contents over all programs |
| C147 | lists offered to programs (`Model/Templates.lean`, `Props/Templates.lean`) | a reader of JSON texts as specification; the parser of records on the lines, filled in |
| C148 | requests with variables of their own (`Model/Scopes.lean`, `Props/Scopes.lean`, on `Model/Memo.lean`) | invariant of memory and cache over all sequences of requests; exact condition for undefined behaviour |
| C149 | named units (`Props/UnitValues.lean`) | an independent table of accepted values; rational evaluation of the program's table, proved equal to its factors, checked row by row in the kernel |
| C150–C151 | binary64 rounding (`Model/Double.lean`, `Lemmas/Double.lean`, `Props/Doubles.lean`) | rounding to nearest proved exact on doubles, monotone, with relative error 2^-53; the polymorphic batch model instantiated with rounded arithmetic |
| C152 | text of numbers (`Model/Format.lean`, `Props/Format.lean`) | a reader of decimal numbers as specification |
| C153–C154 | the engine with the pressure by reference (`Model/Saturation.lean`, `Props/Saturation.lean`) | relational proof between two engines that differ in the order of arguments, by induction over the recursion; the same between the variables 0 and psat |
| C155 | the engine with the numeric models plugged in, and the models of solutes (`Props/Reference.lean`, `GasReference.lean`, `GasRefAny.lean`, `GasRefNaN.lean`, `FluidReference.lean`) | the answer for a solid or gas in terms of its two or three models, then the value of each model at the reference state; for real gases ln φ < 0 from the cubic and bounds on the logarithms |
| C156 | the engine on two databases, and the loading of files (`Props/Locality.lean`) | a relation between runs of the engine on the two databases, closed under sequencing and kept by every function of the engine; permutations of the records of a file |
| C157 | the engine asked by the text of an equation (`Props/ByEquation.lean`, `ByEquationU.lean`) | what the parser makes of the text is a permutation of what stands in it; then the sums of C109 |
| C158 | continuity of the dissolved species' properties (`Props/GContinuous.lean`) | the correction of region II vanishes with its derivatives on both lines (glueing); near 1000 kg/m³ a bounded factor times a continuous zero |
| C159 | checks of the range of the water models and the volume search of Zhang and Duan (`Model/ZhangDuan.lean`, `Props/ZhangDuan.lean`, `Props/WaterRange.lean`) | mean value theorem along the last Newton step; counterexamples by interval arithmetic in the kernel |
| C160 | the pressure passed by reference (`Model/Saturation.lean`, `Model/SatGems.lean`, `Props/ByReference.lean`) | simulation of the engine with the pressure by value, by induction on the depth of recursion and the list of queries; counterexamples through the gems flow |
| C161 | the Python module (`Model/Python.lean`, `Props/Python.lean`, `Props/PythonNumbers.lean`) | the table of exports with their C++ types and the conversion rules of pybind11; types that share no value recognised by shape, for all values by induction; invariant of the variables of a program for lifetimes |
| C162 | sums over species of reactions (`Props/Cycles.lean`, `CyclesGas.lean`) | Hess's law for each leg (C42, C109, C157), one table of species properties for all legs by coherence of the memo; sums collected by species and exchanged |
| C163 | texts and setters of records (`Model/Records.lean`, `Props/Records.lean`) | invariant of all ways of reading: maps in order, records under their symbols, described by their texts; refilling an empty map in order |
| C164 | charges from formulas (`Model/Records.lean`, `Props/Records.lean`) | induction on the substances; the formula parser is a parameter |
| C165 | gases at low pressure (`Model/Gas.lean`, `Props/GasIdeal.lean`, `Props/GasResidual.lean`) | sign changes of the cubic around 1 and uniqueness of its root; classification of all roots into near 0 and near 1; bounds of logarithms; dimensionless forms of the pressure derivatives; expansion of the discriminant in B |
| C166 | stability of gases and minerals (`Model/Gas.lean`, `Model/Cork.lean`, `Model/Substance.lean`, `Props/Stability.lean`, `Props/CorkStable.lean`) | uniqueness of the volume and the limit at large volumes fix the sign of the slope; ln φ as a function of the volume is monotone between the roots |
| C167 | uncertainties of reactions (`Model/Engine.lean`, `Model/ThermoScalar.lean`, `Props/Uncertainty.lean`) | induction on the loop over the species with the squares of the uncertainties as invariant; engines with concrete records for the violations |
| C168 | errors and logs (`Model/Errors.lean`, `Props/Errors.lean`) | a reader of messages (lines, words, the last colon, decimal digits) written apart from the writer and proved inverse to it; case analysis over the registry of loggers; concrete collisions |
| C169 | the engine with the numeric models plugged in (`Props/Transition.lean`, `Props/TransitionRef.lean`) | the answer in terms of the three models, the slopes of each, and a transition with rational order parameter; at the reference point, the limit of G against its value there |
| C170 | setters and getters of records, fromEquation on a reaction with reactants (Model/Setters, Model/Records, Props/Setters) | one step by cases of setter and getter, then induction over the sequence; the fold of the occurrences of C19 over the old reactants |
| C171 | the critical point of the gas equations (`Model/Gas.lean`, `Props/GasCritical.lean`) | sign of the volume derivative as a quartic in v/b with a certificate of squares on each side of the critical attraction; the cubic divided by a root and the intermediate value theorem; a unique root makes the discriminant negative |
| C172 | the three cubic gas models as functions of temperature (`Props/GasContinuity.lean`, `GasLimit.lean`, `FluidLimit.lean`) | continuity of Cardano's root in its coefficients, limits along one-sided filters |
| C133–C134 | `viscos`, `thcond` of `WaterHGK-JNgems.cpp` (`Model/Gems.lean`) | the nested loops with a counter that is not reset reduced to a single sum, for any body |
| C118 | names of methods through reader, codes and dispatch | case analysis over the table, execution of the engine's step |
| C39 for both | density solving the pressure equation | inverse function theorem (`Lemmas/Solve.lean`) with C93/C94 and implicit differentiation |
| C40 | ideal gas water (Woolley) | `HasDerivAt` |
| C76–C77 | `waterDensity` iteration, pressure functions | loop invariant over fuel; witnesses |
| C80–C83 | Johnson–Norton, Sverjensky, Fernandez, Zhang–Duan | `HasDerivAt`; Taylor bounds for difference quotients; algebra |
| C41–C49, C65, C84–C88 | `ThermoEngine.cpp` as a program over oracles with state (flags, caches, solvent), fuel recursion | refinement, relation between runs, induction on call depth and stoichiometry lists |
| C109–C111 | the engine with the numeric models plugged in (`Model/EngineReal.lean`) | coherence of caches (C45) and Hess's law (C42), then derivatives of finite sums |
| C112 | JSON readers, database, engine and numeric models together (`Model/EngineJson.lean`) | composition of C92, C52 and C110 |
| C50–C53, C90 | `Database.cpp` | refinement to finite maps by induction over operation sequences |
| C51 | heap of `Impl` objects | simulation of a value semantics with an ownership invariant |
| C54 | `Element.cpp`/`Substance.cpp` comparisons | case analysis; refuted by witness, partial on class/valence-free part |
| C55–C61 | `ThermoBatch.cpp`, `OutputBatch.cpp` | index arithmetic, induction over lists, shared-state aliasing |
| C62–C63, C89, C91–C92 | `ParseJsonToData.cpp` readers | stepwise execution; whole-table checks; witnesses |
| C64 | bounds check and messages | case analysis; invariance of fields under reading |
| C66–C67 | copies of engines | state machines with shared maps and `this` pointers |
| C68–C71 | generated logK coefficients, U and A of reactions and substances, Landau model | `HasDerivAt`, algebra |

## Trusted base

* The Lean 4 kernel, and the axioms `propext`, `Classical.choice`, `Quot.sound` (each theorem uses a subset of these;
  see AXIOMS.md). No `native_decide`, `bv_decide`, own axioms or `sorry`.
* The transcription of the C++ into the model (cited line by line).
* Real arithmetic in place of IEEE-754 doubles, except C150–C152, which round as binary64 does.
* C++ standard library behaviour (`std::map` ordering by key, `std::string::find/replace`, `std::regex` matching of the two
  expressions used in `Reaction.cpp`) modelled from the standard.

## Not modelled

The numeric part of the CGF gas model (unreachable without undefined behaviour, C122) and the mixture part of `s_solmod*.cpp`, the formula tokenizer of ChemicalFun, the text parser of
nlohmann::json, spdlog logging, the Python bindings (which only forward), number formats other than the fixed one.

<!-- generated -->

## Theorems per property

Written by `tools/gen_design.py`. A theorem named `*_partial` proves part of the property (its comment says what is missing);
one named `*_refuted` proves that the code violates it.

| id | property | status | file | theorems |
|---|---|---|---|---|
| C01 | Derivatives carried by arithmetic are the true partial derivatives | proved | ThermoScalar.lean | `C01_derivatives_exact` |
| C02 | 'not defined' is contagious and never invented | proved | ThermoScalar.lean | `C02_status_propagation` |
| C03 | Reported uncertainties are non-negative and follow the quadrature rule | partial | ThermoScalar.lean | `C03_err_nonneg`, `C03_err_add_sub`, `C03_err_mul_div`, `C03_compound_err_refuted`, `C03_divL_err_refuted`, `C03_function_err_partial`, `C03_function_err_refuted`, `C03_compound_err_partial` |
| C04 | Compound assignment agrees with the free operator | proved | ThermoScalar.lean | `C04_compound_eq_free`, `C04_compound_double` |
| C05 | Caching is invisible when the computed function is pure | proved | Memo.lean | `C05_memoizeN_transparent`, `C05_memoize_transparent` |
| C06 | The bounded cache never grows beyond its configured size | proved | Memo.lean | `C06_bounded` |
| C07 | Recursion through the cache exceeds the bound by at most the nesting depth | proved | Memo.lean | `C07_recursion_bound`, `C07_recursive_transparent` |
| C08 | Eviction removes the oldest inserted entry, never a younger one | partial | Memo.lean | `C08_fifo`, `C08_lru_refuted`, `C08_capacity_one_never_hits` |
| C09 | Results reflect the current database and preferences | partial | Memo.lean | `C09_fresh_refuted`, `C09_fresh_partial` |
| C10 | Single-entry cache returns what the function returns | partial | Memo.lean | `C10_default_refuted`, `C10_throw_refuted`, `C10_last_partial` |
| C11 | Pressure write-back is the same on a cached query | partial | Memo.lean | `C11_writeback_refuted`, `C11_dangling_refuted`, `C11_reference_partial` |
| C12 | Unit conversion is reversible and composes | proved | Units.lean | `C12_proportional`, `C12_composes`, `C12_reversible`, `C12_identity` |
| C13 | Every derived unit resolves to a positive factor | proved | Units.lean | `C13_factors`, `C13_acyclic` |
| C14 | Temperature conversion is exact, reversible and order preserving | proved | Units.lean | `C14_exact`, `C14_total`, `C14_reversible`, `C14_composes`, `C14_monotone`, `C14_scales` |
| C15 | Conversion between different dimensions is refused | partial | Units.lean | `C15_number_or_error`, `C15_iff_partial`, `C15_sound_partial`, `C15_dimensionless_refuted`, `C15_fractional_refuted`, `C15_transitive_refuted`, `C15_relation` |
| C16 | Composite unit strings mean what they read as | proved | Units.lean | `C16_meaning` |
| C17 | Malformed unit strings are reported as errors | partial | Units.lean | `C17_empty_refuted`, `C17_leading_operator_refuted`, `C17_empty_parentheses_refuted`, `C17_garbage_accepted_refuted`, `C17_no_undefined_partial` |
| C18 | Power units are the powers of their base unit | partial | Units.lean | `C18_powers_partial`, `C18_bar_refuted` |
| C19 | Reaction equation text round-trips to stoichiometry | partial | Equation.lean | `C19_round_trip`, `C19_names_refuted`, `C19_reuse_refuted` |
| C20 | A species occurring twice in an equation keeps its net coefficient | partial | Equation.lean | `C20_net_refuted`, `C20_single_partial` |
| C21 | logK(T) fits are thermodynamically consistent | partial | LogK.lean | `C21_consistent`, `C21_both_refuted`, `C21_bounds_refuted`, `C21_defined_partial` |
| C22 | 1-, 2- and 3-term extrapolations are consistent and reproduce the reference state | partial | LogK.lean | `C22_equilibrium`, `C22_three_term`, `C22_two_term_partial`, `C22_two_term_refuted`, `C22_missing_enthalpy_refuted`, `C22_missing_entropy_refuted`, `C22_one_term`, `C22_constant_G_refuted` |
| C23 | Method downgrade picks exactly the richest extrapolation the data allow | partial | LogK.lean | `C23_downgrade`, `C23_zero_enthalpy_refuted` |
| C24 | Heat-capacity coefficients determine the temperature dependence of the reaction | partial | LogK.lean | `C24_frozen_refuted`, `C24_reference_partial` |
| C25 | Conversion between Cp(T) and logK(T) coefficients is lossless | partial | LogK.lean | `C25_logK_round_trip`, `C25_entropy_refuted`, `C25_Cp_round_trip`, `C25_reference_partial`, `C25_reference_refuted`, `C25_error` |
| C26 | Density models satisfy the thermodynamic identities | proved | Density.lean | `C26_DolejsManning`, `C26_FrantzMarshall`, `C26_RyzhenkoBryzgalin` |
| C27 | A reaction is computed with the model it declares | partial | Density.lean | `C27_declared_partial`, `C27_DolejsManning_refuted`, `C27_logK_refuted` |
| C28 | Entropy/constant-Cp integration is exact | proved | SubstanceP.lean | `C28_exact` |
| C29 | Cp polynomial integration is exact | partial | EmpCp.lean | `C29_integrals`, `C29_reported_partial`, `C29_refuted` |
| C30 | Phase transitions keep the Gibbs energy continuous and shift H and S by the recorded amounts | proved | EmpCp.lean | `C30_transitions` |
| C31 | Every temperature selects a valid Cp interval or an error | partial | EmpCp.lean | `C31_partial`, `C31_refuted` |
| C32 | Coefficients of one Cp interval do not influence another | partial | EmpCp.lean | `C32_partial`, `C32_refuted` |
| C33 | Constant-volume and ideal-gas pressure corrections are consistent | partial | SubstanceP.lean | `C33_constant_volume`, `C33_ideal_gas_partial`, `C33_ideal_gas_refuted` |
| C34 | Berman (1988) volume model is consistent | partial | SubstanceP.lean | `C34_linear_partial`, `C34_refuted` |
| C35 | Murnaghan (Holland-Powell 1998) model is consistent | partial | Solids.lean | `C35_consistent_partial`, `C35_missing_parameters`, `C35_reference_refuted` |
| C36 | Landau transition model is consistent | proved | Landau.lean | `C36_consistent`, `C36_reference` |
| C37 | HKF solute model is consistent | partial | HKF.lean, HKFEntry.lean | `C37_partial`, `C37_refuted`, `C37_reaktoro_entry_partial`, `C37_gems_entry_partial` |
| C38 | Born coefficient derivatives of a solute are exact | partial | Born.lean | `C38_reaktoro`, `C38_gems_partial`, `C38_gems_refuted` |
| C39 | Water properties derived from a Helmholtz function are consistent | partial | HGK.lean, WagnerPruss.lean, WaterState.lean | `C39_hgk_partial`, `C39_hgk_refuted`, `C39_wp95_partial`, `C39_partial`, `C39_refuted` |
| C40 | Ideal-gas water properties are consistent | proved | WaterIdeal.lean | `C40_idealGas` |
| C41 | The hydrogen ion is the zero of the scale | proved | Engine.lean | `C41_hydrogen`, `C41_hydrogen_record` |
| C42 | Properties of a reaction computed from its species obey Hess's law | proved | Engine.lean | `C42_hess`, `C42_reverse` |
| C43 | Internal energy, Helmholtz energy and Cv of a reaction obey Hess's law | partial | Engine.lean | `C43_hess_refuted`, `C43_hess_partial` |
| C44 | A substance defined by a reaction closes its reaction | partial | Engine.lean | `C44_closure_partial`, `C44_closure_refuted` |
| C45 | A query answers the same regardless of what was asked before | partial | EngineHist.lean | `C45_history_partial`, `C45_history_refuted`, `C45_nomethods_refuted`, `C45_solvent_refuted` |
| C46 | Every query terminates | partial | EngineDepth.lean | `C46_terminates_partial`, `C46_terminates_refuted` |
| C47 | Fallback to reference values touches only undefined properties | proved | EngineDispatch.lean | `C47_fallback` |
| C48 | Convention changes shift exactly the documented properties by the documented constants | partial | EngineDispatch.lean | `C48_steam`, `C48_berman`, `C48_fallback_refuted` |
| C49 | Every declared calculation method is either executed or refused | partial | EngineDispatch.lean | `C49_methods_partial`, `C49_ignored_refuted` |
| C50 | The database behaves as finite maps from symbols to records | proved | Database.lean | `C50_finite_maps`, `C50_references`, `C50_element_references` |
| C51 | A database copy is independent of the original | proved | Copies.lean | `C51_values`, `C51_copies` |
| C52 | Loading stops at the first malformed record, keeping exactly the records before it | partial | Database.lean | `C52_prefix_partial`, `C52_malformed_refuted`, `C52_silent_refuted` |
| C53 | Charge and formula calculations use the database's own current element data | partial | DatabaseElem.lean | `C53_own_elements_partial`, `C53_overwrite_refuted`, `C53_exception_refuted`, `C53_created_partial`, `C53_created_refuted` |
| C54 | Ordering of elements and substances is a valid ordering | partial | DatabaseElem.lean | `C54_substances`, `C54_elements_refuted`, `C54_equality_refuted`, `C54_elements_partial`, `C54_formula_partial` |
| C55 | Every batch result is stored under the symbol and T-P pair it was computed for | proved | Batch.lean | `C55_storage`, `C55_csv_rows`, `C55_csv_transposed` |
| C56 | Temperature and pressure ranges generate the grid asked for | partial | Batch.lean | `C56_range_points`, `C56_range_exact`, `C56_overshoot_refuted`, `C56_divergence_refuted`, `C56_grid` |
| C57 | A batch result does not depend on the other symbols in the batch | partial | Batch.lean | `C57_independence_refuted`, `C57_independence_partial` |
| C58 | Result columns line up with the requested properties | partial | Batch.lean | `C58_alignment_refuted`, `C58_alignment_partial` |
| C59 | The property grid shows each value under its own T and P | partial | Batch.lean | `C59_grid_partial`, `C59_mislabel_refuted`, `C59_out_of_range_refuted` |
| C60 | A separator inside a name cannot split a CSV column | partial | Batch.lean | `C60_replace_spec`, `C60_no_separator`, `C60_underscore_refuted`, `C60_empty_divergence_refuted` |
| C61 | An output object shows the results of the query it was obtained from | partial | Batch.lean | `C61_output_refuted`, `C61_output_partial` |
| C62 | Every documented method name is honoured when a record is read | partial | ParseJson.lean | `C62_substances_partial`, `C62_reactions`, `C62_distinct_partial`, `C62_distinct_reactions`, `C62_ignored_refuted` |
| C63 | A value missing from a record is left undefined | partial | ParseJson.lean | `C63_complete_partial`, `C63_leak_refuted`, `C63_indeterminate_refuted` |
| C64 | Bounds violations are reported and nothing else changes | partial | Bounds.lean | `C64_substances_partial`, `C64_records_refuted`, `C64_hkf_units_refuted`, `C64_reactions_partial`, `C64_reactions_refuted` |
| C65 | Case-insensitive name comparison is an equivalence | proved | EngineDispatch.lean | `C65_iequals_lower`, `C65_iequals_equivalence` |
| C66 | Copies of an engine keep the cache bound and give correct answers | partial | Memo.lean | `C66_copy_bound_refuted`, `C66_copy_answers_partial`, `C66_copy_bound_partial` |
| C67 | A copied engine answers from its own data | partial | Batch.lean | `C67_copy_refuted`, `C67_copy_dangling_refuted`, `C67_own_data_partial` |
| C68 | Generated logK(T) coefficients reproduce the extrapolation they replace | partial | LogK.lean | `C68_generated_partial`, `C68_constant_refuted` |
| C69 | Internal and Helmholtz energies of reactions follow from the other properties | partial | Density.lean, LogK.lean | `C69_density_partial`, `C69_RyzhenkoBryzgalin_refuted`, `C69_logK_energies_partial`, `C69_zero_enthalpy_refuted` |
| C70 | Volume and heat capacity of the Landau model follow from its Gibbs energy | partial | Landau.lean, Transition.lean | `C70_heat_capacity_refuted`, `C70_volume_refuted`, `C70_ordered_refuted` |
| C71 | Internal and Helmholtz energies of substances follow from the other properties | partial | Landau.lean | `C71_partial`, `C71_refuted` |
| C72 | The g function's reported derivatives are exact | partial | GFunction.lean, GShok.lean | `C72_reaktoro`, `C72_gems_partial`, `C72_gems_wrong_sign`, `C72_gems_refuted` |
| C73 | HKF returns the recorded properties at the reference state | proved | HKFEntry.lean | `C73_reference` |
| C74 | The two HKF implementations agree | partial | HKFEntry.lean | `C74_partial`, `C74_refuted` |
| C75 | Molar properties of water are consistent | proved | WaterDensity.lean | `C75_molar` |
| C76 | The density returned solves the pressure equation to the stated tolerance | partial | WaterDensity.lean | `C76_partial`, `C76_error_partial`, `C76_refuted` |
| C77 | Each pressure function evaluates the equation of state it is named after | partial | WaterDensity.lean | `C77_partial`, `C77_refuted` |
| C78 | The derivatives carried by the water density are those reported with it | partial | WaterCarry.lean, WaterDensity.lean, WaterSearch.lean | `C78_distance_partial`, `C78_partial`, `C78_liquid_partial` |
| C79 | At the triple point water returns the recorded triple-point values | partial | WaterTriple.lean | `C79_partial`, `C79_refuted`, `C79_deviation_partial` |
| C80 | The dielectric constant's reported derivatives and the Born functions are exact | partial | WaterElectro.lean | `C80_partial`, `C80_refuted` |
| C81 | Numerically differentiated dielectric models are accurate to second order everywhere | partial | WaterFD.lean | `C81_partial`, `C81_refuted`, `C81_mixed_refuted`, `C81_unit_refuted` |
| C82 | The Zhang-Duan water model is internally consistent | partial | WaterFD.lean | `C82_newton`, `C82_fugacity`, `C82_density_partial`, `C82_refuted` |
| C83 | The Fernandez dielectric constant solves the Harris-Alder equation | proved | WaterFD.lean | `C83_harrisAlder` |
| C84 | The pressure correction of gases is on for every species of a reaction | partial | EngineHist.lean | `C84_correction_partial`, `C84_correction_refuted` |
| C85 | A change of preferences or conventions takes effect on the next query | partial | EngineDispatch.lean | `C85_change_refuted`, `C85_change_partial` |
| C86 | The derivatives carried by the results for reactions are derivatives | partial | EngineReac.lean | `C86_derivatives_partial`, `C86_ddt_refuted`, `C86_ddp_refuted` |
| C87 | The pressure correction of a reaction keeps its properties consistent | partial | EngineReac.lean | `C87_constant_volume_partial`, `C87_lnK_refuted` |
| C88 | Reaction properties do not depend on the convention for apparent properties | partial | EngineDispatch.lean | `C88_convention_refuted`, `C88_convention_partial` |
| C89 | The expansivity and compressibility of a record are used in the unit it states | partial | ParseFaithful.lean | `C89_mistaken_units_partial`, `C89_expansivity_refuted` |
| C90 | Loading a file again changes nothing; the last record of a symbol wins | proved | Database.lean | `C90_idempotent`, `C90_last_wins` |
| C91 | Values of records are converted from the units the record states | partial | ParseJson.lean | `C91_default_units`, `C91_stated_units_partial`, `C91_hkf_units_refuted` |
| C92 | A record is read as what it says | partial | ParseFaithful.lean, Unread.lean | `C92_substances`, `C92_wrapped`, `C92_reactions`, `C92_elements_partial`, `C92_unread_refuted` |
| C93 | The Wagner-Pruss state holds the derivatives of the Helmholtz energy | partial | WagnerPruss.lean | `C93_partial`, `C93_refuted` |
| C94 | The Haar-Gallagher-Kell state holds the derivatives of the Helmholtz energy | partial | HGK.lean | `C94_partial`, `C94_refuted` |
| C95 | Water becomes an ideal gas at low density | proved | HGK.lean, WagnerPruss.lean | `C95_hgk`, `C95_wp95` |
| C96 | Dissolved gases (Akinfiev-Diamond) have consistent properties | partial | Solutes.lean | `C96_partial`, `C96_refuted` |
| C97 | Solutes of the density models (Anderson, Holland-Powell) have consistent properties | partial | Solutes.lean | `C97_an91_partial`, `C97_an91_refuted`, `C97_an91_volume_refuted`, `C97_hp98_partial`, `C97_hp98_refuted`, `C97_hp98_enthalpy_refuted` |
| C98 | The derivatives every model returns are the derivatives of its results | partial | Carried.lean, CarriedA.lean, CarriedFluids.lean, CarriedGas.lean, CarriedGasK.lean, CarriedGasS.lean, CarriedLandau.lean, CarriedS.lean, GasRefNaN.lean | `C98_density`, `C98_dm10`, `C98_logK_partial`, `C98_logK_refuted`, `C98_hp98_partial`, `C98_hp98_refuted`, `C98_ad_partial`, `C98_ad_refuted`, `C98_fluids_refuted`, `C98_gas_refuted`, `C98_gas_heat_refuted`, `C98_gas_partial`, `C98_gas_entropy_partial`, `C98_prsv_k1_refuted`, `C98_gas_entropy_refuted`, `C98_srk_entropy_refuted`, `C98_pr78_entropy_refuted`, `C98_prsv_entropy_refuted`, `C98_landau_partial`, `C98_entropyCp_partial`, `C98_entropyCp_refuted`, `C98_empCp_partial`, `C98_empCp_refuted`, `C98_conMolVol`, `C98_idealGas`, `C98_berman_partial`, `C98_berman_refuted`, `C98_murnaghan_partial`, `C98_hkfReaktoro`, `C98_hkfGems`, `C98_an91`, `C98_critical_refuted` |
| C99 | The cubic solver of the gas models returns the roots | partial | Gas.lean | `C99_one_partial`, `C99_three_partial`, `C99_inflexion_refuted`, `C99_double_refuted`, `C99_three_refuted` |
| C100 | The gas volume solves the equation of state | partial | Gas.lean, GasCritical.lean, GasLiquid.lean | `C100_pr_partial`, `C100_srk_partial`, `C100_pr_three_partial`, `C100_srk_three_partial`, `C100_stable_partial`, `C100_inflexion_refuted`, `C100_liquid_pr_partial`, `C100_liquid_srk_partial` |
| C101 | Fugacity coefficient and volume of a gas belong together | partial | Gas.lean, GasLiquid.lean | `C101_pr_partial`, `C101_srk_partial`, `C101_liquid_pr_partial`, `C101_liquid_srk_partial` |
| C102 | Residual entropy and enthalpy of a gas belong to its fugacity coefficient | partial | GasT.lean | `C102_srk_partial`, `C102_pr78_partial`, `C102_prsv_partial`, `C102_critical_refuted`, `C102_pr78_sign_refuted`, `C102_prsv_refuted` |
| C103 | Residual heat capacity of a gas belongs to its enthalpy | partial | GasT.lean | `C103_srk_partial`, `C103_pr78_partial`, `C103_prsv_partial`, `C103_prsv_refuted`, `C103_k2_refuted` |
| C104 | The properties of a gas are consistent after the pressure correction | partial | GasEntry.lean | `C104_values_partial`, `C104_zero_partial`, `C104_gibbs_refuted`, `C104_heat_refuted`, `C104_volume_refuted` |
| C105 | The models of gases, dissolved gases and solids read only coefficients their records have | partial | GasEntry.lean, Solutes.lean, Unread.lean | `C105_reads_partial`, `C105_refuted`, `C105_solutes_partial`, `C105_ad_refuted`, `C105_bm_partial`, `C105_bm_refuted` |
| C106 | The Birch-Murnaghan volume solves the Birch-Murnaghan equation | partial | BirchMurnaghan.lean, BirchStrong.lean | `C106_slope_partial`, `C106_volume_partial`, `C106_below_partial`, `C106_start_partial` |
| C107 | The pressure increment of G is the integral of the Birch-Murnaghan volume | partial | BirchMurnaghan.lean | `C107_integral_partial`, `C107_reference_refuted` |
| C108 | The properties of a Birch-Murnaghan solid are consistent | partial | BirchEntry.lean | `C108_gibbs_partial`, `C108_volume_refuted`, `C108_slope_refuted`, `C108_entropy_refuted` |
| C109 | Reactions computed from species obey the equations of van 't Hoff and Planck | proved | VantHoff.lean | `C109_sum`, `C109_answers`, `C109_vantHoff`, `C109_planck` |
| C110 | Mineral reactions are consistent from the record to the equilibrium constant | proved | Minerals.lean | `C110_minerals` |
| C111 | At the reference pressure the pressure step of a reaction changes nothing | partial | Minerals.lean | `C111_reference_partial`, `C111_volume_refuted` |
| C112 | A JSON file of minerals gives consistent equilibrium constants | proved | FromJson.lean | `C112_record`, `C112_file` |
| C113 | CORK: fluids without own parameters follow one Gibbs energy | proved | CorkGas.lean | `C113_volume`, `C113_temperature`, `C113_limit` |
| C114 | CORK: volume and fugacity coefficient of H2O and CO2 belong together | partial | Cork.lean | `C114_co2_partial`, `C114_steam_partial`, `C114_vapour_partial`, `C114_liquid_partial`, `C114_saturation_partial`, `C114_root_refuted` |
| C115 | CORK: entropy, enthalpy and heat capacity of H2O and CO2 belong to their fugacity | partial | CorkT.lean | `C115_co2_partial`, `C115_vapour_partial`, `C115_steam_refuted`, `C115_co2_refuted` |
| C116 | CORK: the volume of H2O is continuous outside the saturation curve | partial | CorkT.lean | `C116_steam_partial`, `C116_jump_refuted` |
| C117 | CORK: the properties returned for the substance are consistent | partial | CorkEntry.lean | `C117_values_partial`, `C117_zero_partial`, `C117_gibbs_refuted` |
| C118 | A record gets the pressure model that it names | partial | NamedModels.lean | `C118_named_partial`, `C118_solid_partial`, `C118_ignored_refuted` |
| C119 | STP: the derivatives of the Helmholtz energy are right | partial | Stp.lean | `C119_derivatives_partial`, `C119_pressure_partial`, `C119_water_refuted` |
| C120 | STP: density, fugacity and residual properties belong together | partial | Stp.lean | `C120_density_exists_partial`, `C120_residual_partial`, `C120_newton_partial`, `C120_result_partial` |
| C121 | STP: the properties returned for the substance are defined and consistent | partial | StpEntry.lean | `C121_values_partial`, `C121_zero_partial`, `C121_gibbs_refuted`, `C121_formula_refuted`, `C121_range_refuted` |
| C122 | CGF reads only the coefficients it was given | partial | NamedModels.lean, StpEntry.lean | `C122_record_refuted`, `C122_array_refuted` |
| C123 | The properties of water in the gems code are those of one fluid | proved | Gems.lean | `C123_consistent` |
| C124 | Entropy and Gibbs energy of water in the gems code are derived from the same Helmholtz energy | partial | Gems.lean | `C124_partial`, `C124_refuted` |
| C125 | dAldT is the derivative of the expansivity | partial | Gems.lean | `C125_partial`, `C125_refuted` |
| C126 | The Born functions of the gems water code are derivatives of the permittivity | partial | GemsBorn.lean | `C126_partial`, `C126_refuted` |
| C127 | The density search of the gems water code returns the density of the pressure asked for | partial | GemsFlow.lean | `C127_ends`, `C127_partial`, `C127_refuted` |
| C128 | Liquid and vapour on the saturation curve of the gems water code are in equilibrium | partial | GemsFlow.lean | `C128_partial` |
| C129 | The state handed out by the gems water code is that of one density at the given pressure | partial | GemsFlow.lean | `C129_partial`, `C129_refuted` |
| C130 | The derivatives of the permittivity handed out by the gems water code are in SI units | partial | GemsFlow.lean | `C130_partial`, `C130_refuted` |
| C131 | Enthalpy and volume handed out by the gems water code belong to the same amount of water | partial | GemsFlow.lean | `C131_partial`, `C131_refuted` |
| C132 | The states of saturated water handed out by the gems water code are those of the two phases | partial | GemsFlow.lean | `C132_partial`, `C132_refuted` |
| C133 | The viscosity of the gems water code is that of the formula it cites | partial | GemsTransport.lean | `C133_partial`, `C133_refuted` |
| C134 | The thermal conductivity of the gems water code is that of the formula it cites | partial | GemsTransport.lean | `C134_partial`, `C134_refuted` |
| C135 | The saturation curves of water are the published ones | proved | WaterSat.lean | `C135_curves` |
| C136 | The search of the water density starts on the side of the phase that is meant, away from the singular densities | partial | WaterSat.lean | `C136_partial`, `C136_refuted` |
| C137 | Reactions with minerals, aqueous species and water obey the laws of equilibrium | partial | Aqueous.lean | `C137_aqueous_partial`, `C137_refuted` |
| C138 | The Wagner-Pruss and Johnson-Norton models provide a solvent and a species that fit together | partial | AqueousWater.lean | `C138_wp95_partial` |
| C139 | The derivatives carried by the computed water density are the derivatives of the computed density | proved | WaterCarry.lean | `C139_carried` |
| C140 | Ending the density search before the root costs exactly the missing pressure | proved | WaterCarry.lean, WaterSearch.lean | `C140_defects`, `C140_search` |
| C141 | Near-critical water: the state handed out is the state found | partial | GemsCrit.lean | `C141_refuted`, `C141_partial` |
| C142 | The near-critical calculation for saturated water ends | partial | GemsCrit.lean | `C142_refuted`, `C142_partial` |
| C143 | The phases of near-critical saturated water are in equilibrium | partial | GemsCrit.lean | `C143_partial`, `C143_refuted` |
| C144 | A value in an output file is in the unit of its heading | partial | BatchFile.lean | `C144_partial`, `C144_stale_refuted`, `C144_documented_refuted`, `C144_vector_refuted` |
| C145 | When a result file is reported written it has been written | partial | BatchFile.lean | `C145_partial`, `C145_refuted`, `C145_again_refuted` |
| C146 | Every cell of a table written by OutputToCSV belongs to its heading | partial | OutputCSV.lean | `C146_partial`, `C146_electro_refuted`, `C146_early_refuted`, `C146_reopen_refuted`, `C146_comma_refuted`, `C146_folder`, `C146_folder_refuted` |
| C147 | The methods and properties a program is offered can be used as offered | partial | Templates.lean | `C147_partial`, `C147_unread_refuted`, `C147_missing_refuted`, `C147_properties` |
| C148 | Requests one after another are all answered | partial | Scopes.lean | `C148_partial`, `C148_refuted` |
| C149 | Every named unit has its accepted value and dimension | partial | UnitValues.lean | `C149_partial`, `C149_refuted`, `C149_tesla_refuted`, `C149_acre_refuted` |
| C150 | A range gives the points asked for in the arithmetic of the machine | partial | Doubles.lean | `C150_points`, `C150_partial`, `C150_refuted`, `C150_divergence_refuted`, `C150_ascending` |
| C151 | The symbols of a batch are computed at the pressure asked for, in the arithmetic of the machine | partial | Doubles.lean | `C151_partial`, `C151_refuted`, `C151_report_refuted`, `C151_bound` |
| C152 | A number read from a result file is the number calculated | partial | Format.lean | `C152_partial`, `C152_temperature_refuted`, `C152_small_refuted`, `C152_order`, `C152_cell` |
| C153 | Answers do not depend on the order in which the arguments of a call are evaluated | partial | Saturation.lean | `C153_partial`, `C153_saturation_partial`, `C153_refuted` |
| C154 | The answer at the saturation pressure is the answer at the pressure handed back | partial | Saturation.lean | `C154_partial`, `C154_refuted`, `C154_reaction_refuted` |
| C155 | At its reference temperature and pressure every substance has its recorded properties | partial | FluidReference.lean, GasRefAny.lean, GasRefNaN.lean, GasReference.lean, Reference.lean | `C155_cork_refuted`, `C155_stp_refuted`, `C155_real_gas_any_refuted`, `C155_critical_refuted`, `C155_real_gas_partial`, `C155_real_gas_refuted`, `C155_solids_partial`, `C155_birch_partial`, `C155_birch_refuted`, `C155_ideal_gas_partial`, `C155_ideal_gas_refuted`, `C155_interval_refuted`, `C155_landau_partial`, `C155_landau_refuted`, `C155_solutes_partial`, `C155_hp98_refuted` |
| C156 | Adding records to a database does not change the answers about the others, and the order of records does not matter | partial | Locality.lean | `C156_partial`, `C156_order_partial`, `C156_refuted`, `C156_files` |
| C157 | A reaction asked for by its equation has the properties its equation says | partial | ByEquation.lean, ByEquationU.lean | `C157_partial`, `C157_multiple`, `C157_refuted`, `C157_energy_partial`, `C157_energy_refuted` |
| C158 | The properties of a dissolved species do not jump | partial | GContinuous.lean | `C158_reaktoro_partial`, `C158_gems_partial`, `C158_refuted` |
| C159 | A model of water answers within its range, with a state of its equation, and refuses outside | partial | WaterRange.lean, ZhangDuan.lean | `C159_gems_partial`, `C159_gems_refuted`, `C159_permittivity_refuted`, `C159_partial`, `C159_refuses`, `C159_volume_refuted`, `C159_range_refuted` |
| C160 | A query leaves the caller's pressure as it was | partial | ByReference.lean | `C160_partial`, `C160_history_partial`, `C160_sequence_partial`, `C160_error_refuted`, `C160_low_refuted` |
| C161 | What the Python module offers can be called as described | partial | Python.lean, PythonNumbers.lean | `C161_partial`, `C161_meant_partial`, `C161_queries_partial`, `C161_order_partial`, `C161_unusable_refuted`, `C161_empty_refuted`, `C161_loggers_refuted`, `C161_alive_partial`, `C161_dangling_refuted`, `C161_numbers_partial` |
| C162 | Cycles of reactions close | partial | Cycles.lean, CyclesGas.lean | `C162_partial`, `C162_energy_refuted`, `C162_gas_refuted` |
| C163 | The text a record hands out describes it | partial | Records.lean | `C163_partial`, `C163_copy_partial`, `C163_edited_refuted`, `C163_created_refuted`, `C163_valence_refuted`, `C163_label_refuted` |
| C164 | Recomputing charges from formulas sets the charges and nothing else | partial | Records.lean | `C164_partial`, `C164_warning_refuted`, `C164_fraction_refuted`, `C164_halfway_refuted` |
| C165 | A real gas becomes ideal at low pressure, and only there | partial | GasIdeal.lean, GasResidual.lean | `C165_pr_partial`, `C165_srk_partial`, `C165_low_pr_partial`, `C165_low_srk_partial`, `C165_entry_partial`, `C165_dense_refuted`, `C165_residual_srk_partial`, `C165_residual_pr_partial`, `C165_residual_entry_partial` |
| C166 | The volume returned is positive and shrinks under pressure | partial | BirchStrong.lean, CorkStable.lean, Stability.lean | `C166_birch_partial`, `C166_cork_partial`, `C166_hydrogen_refuted`, `C166_methane_refuted`, `C166_co2_partial`, `C166_steam_partial`, `C166_steam_refuted`, `C166_pr_partial`, `C166_srk_partial`, `C166_choice_pr_partial`, `C166_choice_srk_partial`, `C166_murnaghan_partial`, `C166_hot_refuted`, `C166_berman_refuted` |
| C167 | The uncertainty of a reaction follows from those of its species | partial | Uncertainty.lean | `C167_quadrature_partial`, `C167_defined_partial`, `C167_zero_refuted`, `C167_equilibrium_refuted`, `C167_closing_refuted` |
| C168 | An error says what went wrong and where; the log goes where it was asked to go | partial | Errors.lean | `C168_read_partial`, `C168_distinct_partial`, `C168_frame_partial`, `C168_tail_partial`, `C168_documented_refuted`, `C168_path_refuted`, `C168_lines_refuted`, `C168_forged_refuted`, `C168_file_refuted`, `C168_range_refuted`, `C168_range_partial`, `C168_log_partial`, `C168_log_refuted`, `C168_update_partial`, `C168_last_partial`, `C168_clear_partial`, `C168_both_refuted`, `C168_unregistered_partial`, `C168_unopened_refuted` |
| C169 | Minerals with a transition are consistent from the record to the answer | partial | Transition.lean, TransitionRef.lean | `C169_transition_partial`, `C169_transition_refuted`, `C169_reference_refuted`, `C169_reference_temperature_refuted` |
| C170 | A setter sets its property and nothing else; the equation of a reaction is the equation of its reactants | partial | Setters.lean | `C170_setters`, `C170_equation_partial`, `C170_equation_refuted`, `C170_setEquation_refuted` |
| C171 | The critical temperature of a gas record is that of its equation of state | partial | GasCritical.lean | `C171_above_partial`, `C171_below_partial`, `C171_program_partial`, `C171_consistent_partial`, `C171_heavy_refuted`, `C171_inflexion_refuted` |
| C172 | The properties of a gas have no jump in temperature where its equation of state has a single volume | partial | FluidLimit.lean, GasContinuity.lean, GasLimit.lean | `C172_cork_limit_refuted`, `C172_stp_limit_refuted`, `C172_heat_limit_refuted`, `C172_prsv_refuted`, `C172_critical_partial`, `C172_nan_refuted`, `C172_partial`, `C172_limit_refuted` |

## Violations found

Each is proved with a concrete witness by the theorem named.

* **C03** `C03_compound_err_refuted`: `x *= y` with a negative product leaves a *negative* uncertainty (ThermoScalar.hpp:151 lacks the `fabs` of the constructor): x = -2±1, y = 1±0 gives err = -1.
* **C03** `C03_divL_err_refuted`: For `c / y` the propagated uncertainty lacks the factor `|c / y|`: 10/(2±1) is reported with uncertainty 1/2 instead of 2.5 (ThermoScalar.hpp:390 uses `tmp1 * r.val`, which is always 1).
* **C03** `C03_function_err_refuted`: `sqrt` and `pow` report the relative uncertainty of the result as if it were absolute (it is |f'|·err divided by the result), and `log` reports 0.434·err/x, the value for log10: sqrt(4±1) is 2±0.125 instead of 2±0.25.
* **C08** `C08_lru_refuted`: With capacity 2, after computing 1, 2 the query 2 is a hit and yet evicts 1; and re-querying the oldest key recomputes it although it was cached.
* **C09** `C09_fresh_refuted`: The engine's caches survive a change of data or preferences, so a repeated query returns the old value: default capacity 10⁶ (ThermoEngine.h), data 1, query, data 2, same query → 1 again.
* **C10** `C10_default_refuted`: The very first call with the default argument returns the default result without running the function.
* **C10** `C10_throw_refuted`: After a call that raised, repeating it returns the previous result instead of raising.
* **C11** `C11_writeback_refuted`: The same variable set to 0 twice and queried twice: the first query stores the saturation pressure into it, the second (a cache hit) leaves 0.
* **C11** `C11_dangling_refuted`: If the variable of the first query is gone, the second identical query (with its own live variable) reads a dangling reference; without the cache the program is well defined.
* **C15** `C15_dimensionless_refuted`: `m/m` and `1` have the same (no) dimension, but the conversion is refused.
* **C15** `C15_fractional_refuted`: The unit K^0.5 is accepted as dimensionless: `convert(x, "K^0.5", "m/m")` returns x.
* **C15** `C15_transitive_refuted`: Convertibility is not transitive: degC to K and K to `K*1/1` are accepted, degC to `K*1/1` is not.
* **C17** `C17_empty_refuted`: Converting from the empty unit string dereferences a null pointer.
* **C17** `C17_leading_operator_refuted`: A string that starts with an operator, followed by any symbol (for example "/s"), is read out of range.
* **C17** `C17_empty_parentheses_refuted`: Empty parentheses dereference a null pointer.
* **C17** `C17_garbage_accepted_refuted`: A malformed string is silently accepted: "kg(m)" is no unit expression, yet it converts to "g" with factor 1 (text before the last character in front of the parenthesis, and the parenthesis, are ignored).
* **C18** `C18_bar_refuted`: Bar^2 is defined as K^2: it converts to K^2 unchanged and is refused as bar*bar.
* **C19** `C19_names_refuted`: The conditions on names are needed: a coefficient followed by a name like `E1` is read as one number and the species is lost; a name that starts with neither a letter nor a parenthesis is refused without a coefficient.
* **C19** `C19_reuse_refuted`: Reading a second equation into the same reaction keeps the species of the first: the text then does not determine the stoichiometry.
* **C20** `C20_net_refuted`: The last occurrence of a species overwrites the others, on the same side and across sides.
* **C21** `C21_both_refuted`: With both kinds of coefficients the reported heat capacity comes from the Cp coefficients even where it is not the temperature derivative of the reported enthalpy.
* **C21** `C21_bounds_refuted`: With neither kind of coefficients (or both, one of them too short) coefficients are read past the end of the vector.
* **C22** `C22_two_term_refuted`: In the two-term extrapolation the enthalpy is held constant while the reference heat capacity is reported, so dH/dT ≠ Cp at every temperature.
* **C22** `C22_missing_enthalpy_refuted`: When only G and S are known, the enthalpy is derived with the current instead of the reference temperature: the reported G stays at its reference value at every temperature and dG/dT = 0 ≠ -S.
* **C22** `C22_missing_entropy_refuted`: Likewise, when only G and H are known the entropy is derived with the current temperature, `S = (H - G)/T`, which is not minus the slope of the reported (constant) G unless it is zero.
* **C22** `C22_constant_G_refuted`: The constant-G extrapolation reports H = G whatever the entropy: G ≠ H - T S as soon as S ≠ 0.
* **C23** `C23_zero_enthalpy_refuted`: When H = 0 and log K are all that is known (so log K does not depend on temperature), the three-term request is carried out with the unknown G: the reported log K is the undefined value 0, whatever log K was given.
* **C24** `C24_frozen_refuted`: With Cp coefficients and no logK coefficients, the reported enthalpy and entropy are the reference values at *every* temperature, for all coefficients: the constants of integration are computed at the current temperature.
* **C25** `C25_entropy_refuted`: With `K4 = 1` at 298.15 K the constant of integration is not recovered.
* **C25** `C25_reference_refuted`: Converting a heat capacity `1/T²` at 298.15 K changes the reference entropy and reports Cp = 1.
* **C27** `C27_DolejsManning_refuted`: A reaction that declares the Dolejš-Manning model and has coefficients for both models gets the Frantz-Marshall value; one that has Dolejš-Manning coefficients only is read past the end of an empty vector.
* **C27** `C27_logK_refuted`: Whenever Frantz-Marshall (and so also the Dolejš-Manning entry) reports ln K, log10 K is left without a value: its status stays "not defined" and its value 0 whatever ln K is.
* **C29** `C29_refuted`: `pow(TK, (1 / 2))` is an integer division: the tenth term of the reported Cp is the bare coefficient while the integrals use its product with the square root of T. With a nonzero tenth coefficient the reported Cp is the slope of H at no temperature but 1 K.
* **C31** `C31_refuted`: The interval index stays -1, and the coefficient table is read at -1: at exactly the upper end of the last interval of any record; between two intervals that leave a gap; for any record with coefficients and no interval. A record with fewer transitions than inner bounds is read past the end of the transition table.
* **C32** `C32_refuted`: Lists of different length: the coefficient array is filled from the interval of T first and not cleared between intervals. Of two records that differ only in the coefficients of the second interval, at the lower end of that interval (where it has contributed nothing yet) the enthalpies differ.
* **C33** `C33_ideal_gas_refuted`: The correction adds V(T,P) (P - Pr) with the volume at the final pressure instead of the integral R T ln(P/Pr), so dG/dP is R T Pr / P² instead of V = R T / P; they agree only at P = Pr.
* **C34** `C34_refuted`: The squares and cubes of T - Tr in G, S, H and V were replaced by the square of the reference temperature. At the reference temperature, and any pressure, the slope of G differs from V by V° v1 Tr²; and H - G - T S is off.
* **C35** `C35_reference_refuted`: The increments are integrated from zero pressure, but at exactly the reference temperature and pressure none are added: the Gibbs energy of every mineral jumps there, so it has no slope in pressure.
* **C37** `C37_refuted`: A species with a1 = 1 and all else zero at 300 K and 2 bar: dG/dP is not V (the factor 41.84004 cm³·bar/cal used for V and the factor 4.184 J/cal used for G disagree), and U is not H - P V (U is formed from H in cal and V in cm³).
* **C38** `C38_gems_refuted`: The mixed derivative of a cation's Born coefficient is left at zero.
* **C39** `C39_hgk_refuted`: At 647.27 K and 693 kg/m³ dP/dD and dD/dT are not zero and a density solution exists, and for every one densityTP is neither the derivative of densityP by the temperature nor that of densityT by the pressure, and densityTT is not the derivative of densityT by the temperature.
* **C39** `C39_refuted`: The formula of densityTT divides by densityT. Where densityT = 0 (water at 277 K) the second temperature derivative of density is not reported (the C++ code computes 0 · ∞, not a number; with x/0 = 0 the formula gives 0, while the derivative here is -2).
* **C43** `C43_hess_refuted`: (full statement: U, A and Cv of a reaction computed from its species are the sums of coefficient times species property.) The code overwrites them in every round of the loop; for `B + B = A` with U = 2, 5 it reports 10 instead of 8.
* **C44** `C44_closure_refuted`: When the record asks for the constant-volume pressure correction and the reaction has none: X = A with reaction G = 3, G(A) = 2 gives G(X) = 6 at 2 bar, so that G(X) - G(A) = 4.
* **C45** `C45_history_refuted`: The Gibbs energy reported for an ideal gas depends on what was asked before. On a new engine it is that of the record (3), but V (P - Pr) = R T / 2 more once a reaction of the gas has been asked for, or once a query for some other reaction has failed.
* **C45** `C45_nomethods_refuted`: A query for a record without any method, which succeeds, does the same.
* **C45** `C45_solvent_refuted`: In another way when the solvent is not called `H2O@`: a reaction that needs the solvent is refused on a new engine and computed once the properties of some dissolved species have been asked for.
* **C46** `C46_terminates_refuted`: A query for a substance marked as computed from a reaction, whose record names no reaction, calls itself without end, although there is no circular definition.
* **C48** `C48_fallback_refuted`: With the fallback: a record whose method leaves the Gibbs energy undefined (here the unused temperature code `BER`) gets the recorded Gibbs energy in both conventions, because the fallback (ThermoEngine.cpp:462) comes after the conversion (441-455); with the code `CON`, which answers with the recorded Gibbs energy too, the conversion is made.
* **C49** `C49_ignored_refuted`: In every engine with the default conventions and whatever models, a substance with the entropy integration (`CST`) is answered with just the result of that model when its record carries any of eleven pressure codes and any of 19 general codes besides, and a substance with the heat capacity integration (`CPT`) with just the result of that when its record carries any of 24 temperature codes, `CST` among them, and any of the pressure codes: these codes are neither run nor refused.
* **C52** `C52_malformed_refuted`: A malformed record (its name is not a text) does not stop the loading: no exception leaves it, the malformed record is stored under the empty symbol, without any of its data, and the record after it is loaded too.
* **C52** `C52_silent_refuted`: A label that is not a text stops the loading of the records after it, but no exception tells so.
* **C53** `C53_overwrite_refuted`: Appending a file that overwrites an element leaves the old data in the element table: the database has the new atomic mass, and formulas are calculated with the old one.
* **C53** `C53_exception_refuted`: When appending fails midway, the elements read before are in the database but not in the element table; formulas with them raise.
* **C53** `C53_created_refuted`: An element created by `element(symbol)` that the table does not have is in the database, but formulas cannot use it: its key is not found.
* **C54** `C54_elements_refuted`: Of two isotopes with different valences each is less than the other: the comparison of elements is not an ordering.
* **C54** `C54_equality_refuted`: Two elements are equal although one is less than the other.
* **C56** `C56_overshoot_refuted`: With a step that does not divide the range, a point beyond `max` is generated.
* **C56** `C56_divergence_refuted`: With a zero or negative step and `min < max` the loop never ends.
* **C57** `C57_independence_refuted`: A symbol earlier in the list that rewrites `P = 0` changes what a later symbol is computed at: the row of "x" differs between the batches ["w","x"] and ["x"].
* **C58** `C58_alignment_refuted`: A requested name the selector does not know is skipped silently, so all later columns shift left: asking a substance batch for "density" and "entropy" gives one column, labelled "density" by the writers, holding the entropy.
* **C59** `C59_mislabel_refuted`: Pairs that are not a complete grid are mislabelled: from (25,1),(50,2) — e.g. a table of arbitrary pairs — with two symbols, the value of "b" at (25,1) is printed under "a" at T = 50.
* **C59** `C59_out_of_range_refuted`: A complete grid of two temperatures and the pressures 0 (saturation) and 100: the rewritten pressures make three columns, and the second line is read past the end of the four results.
* **C60** `C60_underscore_refuted`: With a separator containing `_` the cleaned name can still contain it: "_,," cleaned of "_," is "_,".
* **C60** `C60_empty_divergence_refuted`: With an empty separator the loop never ends.
* **C61** `C61_output_refuted`: Reading the first output after a second request returns the second request's results.
* **C62** `C62_ignored_refuted`: The documented methods `solute_holland_powell98` and `solute_anderson91`, for which the engine has models, are silently ignored: the record is read without an exception and has no method at all.
* **C63** `C63_leak_refuted`: One number of a record leaks into another: an element record without heat capacity and volume, as in all shipped databases, gets its entropy for the heat capacity and its atomic mass for the volume.
* **C63** `C63_indeterminate_refuted`: An element record without entropy gets an indeterminate entropy, and a substance record without molar mass an indeterminate molar mass, instead of the default 0.
* **C64** `C64_records_refuted`: For a substance read from any record, whatever limits the record states, the message of limits that are exceeded is attached at every temperature and every positive pressure: limits of pressure are not read and stay 0.
* **C64** `C64_hkf_units_refuted`: The reaktoro HKF model compares degrees Celsius and bar with limits in K and Pa: it reports within the limits, and is silent outside.
* **C64** `C64_reactions_refuted`: Outside the limits of a reaction its computed `log K` and `ln K` get no message.
* **C66** `C66_copy_bound_refuted`: A copied engine shares the map but not the eviction queue: with capacity 2 the pair of engines lets the shared cache grow to 3 entries (and further with more copies of keys).
* **C67** `C67_copy_refuted`: Changing the data of a copied engine has no effect on its answers: they come from the original.
* **C67** `C67_copy_dangling_refuted`: Destroying the original makes the copy unusable (use after free).
* **C68** `C68_constant_refuted`: For the one-term methods the generated coefficients do not reproduce the extrapolation: constant log K is replaced by S/(R ln 10), constant G by H. And for a reaction that already has logK(T) coefficients they are discarded.
* **C69** `C69_RyzhenkoBryzgalin_refuted`: The reported volume is in J/bar but the internal energy is computed with the volume in J/Pa and the pressure in bar: U differs from H - P V by P V (1 - 1e-5), which is not zero unless P V is.
* **C69** `C69_zero_enthalpy_refuted`: For a reaction with zero enthalpy U and A are reported as undefined zeros even when all data are known.
* **C70** `C70_heat_capacity_refuted`: Above the transition, for a mineral with a transition volume and no thermal expansivity at a positive pressure: the entropy increment changes with temperature (through the bulk modulus) but the reported heat capacity has no increment.
* **C70** `C70_volume_refuted`: Above the transition, at a positive pressure, the slope of the Gibbs energy in pressure is the volume compressed to that pressure; the reported volume is that at zero pressure.
* **C70** `C70_ordered_refuted`: Below the transition the volume of `thermoPropertiesMinHPLandau` is not the slope of its Gibbs energy either: the derivative of the order parameter has 1 + T/Tc for 1 - T/Tc and the wrong sign, the term Tc Q² dQ should be 2 Tc Q⁵ dQ, and the last term should be Vmax Q⁶/3, not Vmax/Smax Q³/3. A mineral with the transition entropy and volume of quartz, whose order parameter is 0.9 at 25 °C and 2 bar, is given an excess volume that is too small by more than 0.004 of 0.021 J/bar.
* **C71** `C71_refuted`: At exactly the reference temperature and pressure the Berman model reports H, V and S but leaves U as it was; so does the constant volume model when no volume is recorded.
* **C72** `C72_gems_refuted`: At 273 K and 10 bar, 1028 kg/m³, the reported pressure derivative is wrong.
* **C74** `C74_refuted`: With the same inputs the two implementations return a different entropy for a charged species, whatever the temperature and pressure.
* **C76** `C76_refuted`: The result can be far from a solution. Here the guess passes the test, the density returned is one step further, where the pressure is off by a million Pa.
* **C77** `C77_refuted`: `waterPressureWagnerPruss` ignores the Wagner-Pruss model: it returns the pressure of the HGK model whatever the two models are, so it is wrong wherever they differ.
* **C79** `C79_refuted`: C79 refuted for Haar-Gallagher-Kell: the triple-point temperature used is 273.15 K, so the Helmholtz energy is off by a hundredth of the recorded entropy.
* **C80** `C80_refuted`: Where the fourth temperature polynomial vanishes the quotient k'/k drops its term from the mixed derivative of the dielectric constant (in the code the quotient is infinite and the derivative not a number).
* **C81** `C81_refuted`: The step is proportional to the Celsius temperature (and to the pressure, zero being the convention for the saturation curve), so the difference quotient is 0/0 there (not a number in the code, 0 in the model).
* **C81** `C81_mixed_refuted`: It and the Born functions U and N are never set, so they are zero for every dielectric constant.
* **C81** `C81_unit_refuted`: The Johnson-Norton model reports `epsilonP` per Pa, so that Q = epsilonP/ε²; here it is per bar.
* **C82** `C82_refuted`: It is converted from 1/bar² to 1/Pa² with the factor for 1/bar. The density 1000 + P² (bar) has the second derivative 2e-10 per Pa²; reported is 2e-5.
* **C84** `C84_correction_refuted`: When a species that is itself defined by a reaction comes first, it switches the correction off, and the gas after it is taken without the correction: G of the reaction is 5 + 3 where 5 + 3 + R T / 2 is due.
* **C85** `C85_change_refuted`: A substance asked for once is answered with the old value after the convention has been changed, while the same engine with empty caches answers with the new one.
* **C86** `C86_ddt_refuted`: The temperature derivative carried by ln K of a reaction computed from its species is not the derivative of ln K, even where that carried by the Gibbs energy is right (here G = 8 at all T and P).
* **C86** `C86_ddp_refuted`: For the pressure derivative too: with constant volume, the derivative carried by G is 0, not the volume.
* **C87** `C87_lnK_refuted`: At twice the reference pressure the reported ln K of the example is not ln(10) log K; ln K is still that of the reference pressure.
* **C88** `C88_convention_refuted`: The elements of the hydration reaction balance, but its Gibbs energy in the Berman-Brown convention differs from that in the Benson-Helgeson convention by Tr times the entropy of the elements in water (about 69.5 kJ/mol): the conversion (ThermoEngine.cpp:441-455) leaves out the solvent.
* **C89** `C89_expansivity_refuted`: An expansivity stated in its right unit 1/K is used a hundred thousand times too small: with any expansivity up to 1e-4 1/K (those of minerals are some 1e-5 1/K) the Murnaghan model gives, at all temperatures and pressures, what it gives for an expansivity of 0.
* **C91** `C91_hkf_units_refuted`: If the third unit of HKF coefficients is `(cal*K)/mol`, the units of all of them are disregarded: a first coefficient of 4.184 J/(mol bar), which is 1 cal/(mol bar), is read as 4.184 cal/(mol bar).
* **C92** `C92_unread_refuted`: The coefficients of the Berman, Birch-Murnaghan and Churakov-Gottschalk models are never read, whatever the record states and under whatever key (the lines that would read them are comments or missing). A substance read from a record that declares one of the first two models cannot be computed: the models raise an error at every temperature and pressure.
* **C93** `C93_refuted`: At every temperature there is a density below which helmholtzTTT is not the derivative of helmholtzTT: the code multiplies by tT·tT·tau·T where the chain rule demands tT³.
* **C94** `C94_refuted`: At 647.27 K and 693 kg/m³ the field fTDD is not the derivative of fTD by the density, nor that of fDD by the temperature, and fTTT is not the derivative of fTT by the temperature.
* **C96** `C96_refuted`: With the water of the code, whose volumes are computed with the molar mass 18.015268 g/mol: for every solute with ξ ≠ 1 and at every state, the reported volume is not dG/dP. (The relative difference is 7·10⁻⁷ of the water term.)
* **C97** `C97_an91_refuted`: By the model of Anderson et al.: wherever the entropy differs from its reference value, H is not the G + T S of the reference state carried along: the change of G is not that of H - T S.
* **C97** `C97_an91_volume_refuted`: By the model of Anderson et al.: the reported volume is constant, dG/dP is proportional to the compressibility of the solvent.
* **C97** `C97_hp98_refuted`: By the model of Holland and Powell: wherever the density differs from the reference density (and the factor is not zero) S is not -dG/dT.
* **C97** `C97_hp98_enthalpy_refuted`: By the model of Holland and Powell at all temperatures: the change of G is not that of H - T S wherever S differs from its reference value.
* **C98** `C98_logK_refuted`: The coefficients of log K are then computed from the heat capacity at the current temperature, as numbers, on every call. With a constant heat capacity c the enthalpy returned is the constant reference enthalpy, while the derivative it carries is c.
* **C98** `C98_hp98_refuted`: T' is there a plain number equal to T, so the temperature derivative carried by G is too large by K ln(ρ/ρ₂₉₈)/T, wherever the density differs from the reference density and the factor K is not zero.
* **C98** `C98_ad_refuted`: Whenever the heat capacity of the reference increment is not zero, the temperature derivatives carried by S and by H are not those of their values, at any state.
* **C98** `C98_fluids_refuted`: By the CORK and STP fluids too: the volume they return is a plain number. Below the lower temperature limit of the record, for example, it is that of an ideal gas, RT/P, with a pressure derivative of zero, for every record and pressure.
* **C98** `C98_gas_refuted`: By the gas equations of state: the volume they return carries zero derivatives, while it changes with pressure. So it is for each of the three models, every record and every temperature and pressure in range at which the equation has a single volume, with and without pressure correction.
* **C98** `C98_gas_heat_refuted`: By the enthalpy of the gas equations of state as well: the residual enthalpy is added as a plain number, so the derivative carried is that of the ideal gas. Whatever properties come in with H carrying its temperature derivative Cp, the derivative carried by the H that goes out is less than its derivative.
* **C98** `C98_prsv_k1_refuted`: By the PRSV model with k1 below the critical temperature: for every record with k1 ≠ 0 and k2 = 0 and every pressure with a single volume (off the one temperature at which k does not change, as in `C102_prsv_refuted`), H and S do not both carry their derivatives, whatever the residual heat capacity.
* **C98** `C98_gas_entropy_refuted`: By the enthalpy and entropy of the gas equations of state, for every record of a gas above its critical temperature (`C171_consistent_partial` has the same conditions): the residual H and S are added as plain numbers. The derivative carried by H is too small by the residual heat capacity, that carried by S by the residual heat capacity over T; wherever the residual heat capacity is not zero neither is the derivative of the value.
* **C98** `C98_srk_entropy_refuted`: By the enthalpy and entropy of the Soave-Redlich-Kwong equation, for every record at every temperature and pressure with a single volume.
* **C98** `C98_pr78_entropy_refuted`: By the enthalpy and entropy of the Peng-Robinson equation of 1978, for every record at every temperature off the critical one and every pressure with a single volume: below the critical temperature too.
* **C98** `C98_prsv_entropy_refuted`: By the enthalpy and entropy of the Peng-Robinson-Stryjek-Vera equation in the same way; below the critical temperature for records with κ₁ = κ₂ = 0.
* **C98** `C98_entropyCp_refuted`: The reference temperature is declared as a temperature and so carries a derivative of one. The enthalpy carries a temperature derivative of zero instead of Cp, at every temperature, and the entropy one of Cp/T - Cp/Tr instead of Cp/T.
* **C98** `C98_empCp_refuted`: The upper bounds of the intervals passed are made temperatures, which carry a derivative of one. The enthalpy then carries, besides its derivative C(T), the heat capacities at all the bounds below T: the carried derivative is wrong whenever these do not add up to zero.
* **C98** `C98_berman_refuted`: At exactly (Tr, Pr) the volume term is skipped: the Gibbs energy returned there carries the pressure derivative of the uncorrected G, which is short of the derivative of the value by V/1e5.
* **C98** `C98_critical_refuted`: By both Peng-Robinson models at the critical temperature: for every record and pressure in their range, with and without the pressure applied to gases, the H and S returned are not numbers (0/0, for which the model has no result), whatever the properties of the ideal gas and their derivatives.
* **C99** `C99_inflexion_refuted`: A root at the inflexion point is lost. For z³ + z = 0 the solver divides 0 by 0 and returns NaN instead of the root 0.
* **C99** `C99_double_refuted`: If the discriminant is 0 only the simple root is returned. For (z-1)²(z+2) = z³ - 3z + 2 the solver returns no number but -2, although 1 is a root.
* **C99** `C99_three_refuted`: Because of the literal 3.1415927 for π the second and third of three real roots are not roots. For z³ - 3z = 0 neither number is one of the roots 0, √3, -√3.
* **C100** `C100_inflexion_refuted`: At single pressures: a gas with the critical constants of carbon dioxide gets no volume at 306.03 K and a pressure between 82.6 and 97 bar, where the root is the inflexion point of the cubic, although the equation of state has a solution above b there.
* **C102** `C102_critical_refuted`: At the critical temperature: H and S of PR78 (and PRSV) are NaN for T = Tc, at every pressure where the volume and the fugacity coefficient are numbers.
* **C102** `C102_pr78_sign_refuted`: At high temperatures: where 1 + k(1 - √(T/Tc)) is negative, `sqrt(alph)` has the wrong sign for the formula of H. The witness has Tc = 100, ω = 0.3 and T = 2500.
* **C102** `C102_prsv_refuted`: By PRSV: below the critical temperature the coefficient k1 makes k a function of temperature, which the formula of H ignores. Whenever k1 ≠ 0, k2 = 0 and the derivative of k does not vanish, S is not minus the derivative of G. (The hypotheses that the cubic has one real root and that 1 + k(1-√Tr) is positive are those of the positive results.)
* **C103** `C103_prsv_refuted`: By PRSV: with k1 ≠ 0 the number taken for d²a/dT² is not the derivative of da/dT (a sign is wrong in the source), and the heat capacity differs from -T d²G/dT².
* **C103** `C103_k2_refuted`: By PRSV for k2 ≠ 0 as well: the number taken for da/dT ignores k2 and k3. Witness: Tc = 400, ω = 0, k2 = 1, k3 = 0, T = 100.
* **C104** `C104_gibbs_refuted`: Whatever consistent properties come in, the properties going out do not satisfy G = H - TS. Witness: argon-like critical constants, 216 K and 443 bar.
* **C104** `C104_heat_refuted`: The heat capacity is left as it was although the enthalpy gets a residual part that depends on temperature. For any incoming properties with Cp = dH/dT, the outgoing ones have Cp ≠ dH/dT.
* **C104** `C104_volume_refuted`: Neither with nor without the pressure correction is the volume the pressure derivative of G. Without it G does not depend on pressure; with it G gets V(P - Pref), with the volume at P, instead of the integral of V.
* **C105** `C105_refuted`: A record without temperature intervals, or with fewer than seven critical parameters (six are used by PRSV, three by the others), makes the gas models read outside the vectors, at every temperature and pressure.
* **C105** `C105_ad_refuted`: One or two coefficients pass the check of the Akinfiev-Diamond model (the vector is not empty), which then reads past the end of the vector, at every state.
* **C105** `C105_bm_refuted`: With eight coefficients, which pass the check, the ninth is read past the end of the vector, at every state but the reference state.
* **C107** `C107_reference_refuted`: At the reference pressure: with the exact volume `r` at that pressure the increment of G is negative, not zero, at every temperature.
* **C108** `C108_volume_refuted`: Compressing the solid more than doubles its volume. At the reference temperature and any pressure from 0.2 to 10 MPa the volume returned is more than 2.9 times the volume at the reference pressure, because the reference volume is added to the volume that came in, which is the reference volume already, and to the volume computed.
* **C108** `C108_slope_refuted`: DG/dP = V fails somewhere between 5 and 10 MPa, whatever non-negative volume comes in.
* **C108** `C108_entropy_refuted`: DG/dT = -S fails somewhere between 300 and 301 K, although it holds for the properties that came in; the increment of the entropy has the wrong sign.
* **C111** `C111_volume_refuted`: A reaction with a logK(T) function and a volume function as pressure step loses the properties computed from the former. Whatever they are, at all T and P and in particular at the reference pressure, the engine reports log K = ln K = 0 and G = H = 0, with the status "not defined"; the volume function is never evaluated. The example has log K = 1.
* **C114** `C114_root_refuted`: Fails for liquid H2O at 625 K and 90 kbar, inside the limits of the program (1e5 bar): the equation of state has a solution larger than the co-volume, but the result is not a number, because the condition for the third root tests the second one and a negative root is taken.
* **C115** `C115_steam_refuted`: (H2O above 695 K), refuted for every temperature but one: the parameter a is a polynomial of T - 673, its derivative is computed as if it were one of 673 - T. Up to 2 kbar, wherever the cubic has a single real solution, the residual entropy is not minus the temperature derivative of the residual Gibbs energy, and the residual enthalpy is wrong, too.
* **C115** `C115_co2_refuted`: (CO2 above 5 kbar), refuted: enthalpy and entropy leave out what the virial part of the volume contributes to the energy (they are those of a Redlich-Kwong fluid with the corrected volume). From 5 to 30 kbar and up to 1100 K, wherever the cubic has a single real solution, the residual entropy is not minus the temperature derivative of the residual Gibbs energy.
* **C116** `C116_jump_refuted`: At 695 K, refuted at every pressure below saturation where the cubics on both sides have a single solution: the volume of H2O is not continuous in temperature. The two polynomials for the parameter a meet at 673 K, not at 695 K where the code changes from one to the other.
* **C117** `C117_gibbs_refuted`: At every state where the fugacity coefficient is not 1: if consistent properties come in, those going out do not satisfy G = H - TS, whatever the fluid.
* **C118** `C118_ignored_refuted`: By three documented pressure methods, `mv_equation_dorogokupets88`, `mv_eos_tait_hp11` and `fug_critical_param`: the record is read without an exception, but the engine runs no pressure model at all. Its result, whatever the state and the pressure, is that of the integration of the heat capacity.
* **C119** `C119_water_refuted`: For H2O at 348.4080... K: pressure and slope are as at any other temperature, but whatever pressure and record, there are no fugacity and residual properties (they are NaN, or never set), for the code divides by a coefficient that is zero there.
* **C121** `C121_gibbs_refuted`: At every state where the fugacity coefficient is not 1: if consistent properties come in, those going out do not satisfy G = H - TS.
* **C121** `C121_formula_refuted`: For every formula but `H2O` and `CO2`: the code of the fluid is not initialised.
* **C121** `C121_range_refuted`: Above 2000 K and below 200 K, if the temperature is not below that of the record: the error code of the fluid class is dropped, and results are read that have not been set.
* **C122** `C122_record_refuted`: (through the engine): a record that names the model of Churakov and Gottschalk is read without an exception, but a query for the properties of the substance has undefined behaviour, whatever temperature, pressure and state.
* **C122** `C122_array_refuted`: By every record of a fluid with the model of Churakov and Gottschalk, at every temperature and pressure and whatever the rest of the model does: it reads twelve elements of an array that has seven.
* **C124** `C124_refuted`: C124, refuted. At 298.15 K and 0.9971 g/cm³, ∂G/∂P at constant temperature is not M/ρ.
* **C125** `C125_refuted`: C125, refuted. At 641 K and 0.33 g/cm³ the expansivity grows along the isobar, its derivative is between 0.09 and 0.1 1/K², and `dAldT` is below −3.7: the second derivative by density of the 38th term is computed with `l/di/di` instead of `l/del/del` (WaterHGK-JNgems.cpp:2977-2978).
* **C126** `C126_refuted`: C126, refuted. At 641 K and 0.33 g/cm³, X is not the derivative of Y along the isobar.
* **C127** `C127_refuted`: At 298.15 K and 10 MPa the search started with the guess 0 (as `calcv2` does for vapour) ends in the unstable region, at a density of the equation of state for which the pressure is below −90 MPa.
* **C129** `C129_refuted`: At 25 °C and 100 bar, the vapour (state 1) is handed out with a density of 54 kg/m³, at which the pressure of the equation of state is below −900 bar, with the pressure 100 bar, and with a negative compressibility.
* **C130** `C130_refuted`: For water at 298.15 K and 0.9971 g/cm³, ε_P as handed out is 100000 times the derivative of ε per pascal, and not equal to it.
* **C131** `C131_refuted`: For water at 298.15 K and 0.9971 g/cm³, the derivative of the enthalpy by pressure is not V·(1 − αT).
* **C132** `C132_refuted`: At 25 °C the pressure handed back (bar) is above the one handed out with the properties (Pa).
* **C133** `C133_refuted`: For water of 25 °C and 997.047 kg/m³ the formula gives more than 16 times the viscosity of the code.
* **C134** `C134_refuted`: For water at its greatest density (expansivity 0), here 277.13 K and 999.97 kg/m³, the formula gives more than 1.15 times the thermal conductivity of the code.
* **C136** `C136_refuted`: At the critical temperature: the search then starts exactly at the critical density, liquid or vapour, where the reduced density is 1 and the critical terms of the Helmholtz function divide by δ - 1 = 0, which the source means to avoid; a state other than 0, 1, 2 that is asked for below the critical temperature gives the start 0, where the Helmholtz function divides by δ = 0.
* **C137** `C137_refuted`: For dG/dP = V: if all species of a reaction are HKF solutes and its volume is not zero, dG/dP is not V, since the factors 4.184 J/cal of G and 41.84004 of V do not agree; the second part is a reaction where this happens (N = M at 280 K and 10 bar, V = -4.184004 J/bar).
* **C141** `C141_refuted`: Between 646.5 K and the critical temperature, at every pressure above the critical one that belongs to the near-critical region, the density handed out for the liquid is 0 (its volume is 1/0), and for the other phase all energies are 0 and so is the permittivity: the search has found a density between 199 and 421 kg/m³, but `Dens[1]` and `wr` are what is read (WaterHGK-JNgems.cpp:14, 25, 487-491). `T` in K and `P` in Pa.
* **C142** `C142_refuted`: Within 1e-7 K of the critical temperature, asked for saturated water, the near-critical calculation never ends: the two densities agree, the flag `sW` of the loop of `LVSeqn` is set (WaterHGK-JNgems.cpp:1582-1591) and nothing clears it. (For a pressure that counts as 0, `calculate` takes the saturated branch.)
* **C143** `C143_refuted`: From 643 K to 645 K the relation of Clausius and Clapeyron does not hold for the values handed out: the entropies are for 18.015534144 g of water (4.305816 · 4.184), the volumes for 18.015268 g.
* **C144** `C144_stale_refuted`: The units of the headings are those set when the file is written, the temperature is written as it was given. A program that asks at `T` kelvin, sets degrees Celsius for the temperature and writes the file gets the number `T` under the heading `T(degC)`, beside the value of the property at `T` kelvin; the values at `T` °C are others. No call raises.
* **C144** `C144_documented_refuted`: The class comment says that temperatures and pressures are to be given in degrees Celsius and bar (ThermoBatch.h:89); a new object takes them as kelvin and pascal: a request at 25 and 1 asks the engine at 25 K and 1 Pa.
* **C144** `C144_vector_refuted`: The units set for the results have no effect on the values handed out as numbers: with kJ/mol set, the file has `(T + P)/1000` under the heading `gibbs_energy(kJ/mol)`, the vector `T + P`.
* **C145** `C145_refuted`: After an attempt to write that raised, the stream of the output is still open; a later call on the same output returns without an exception and writes nothing. Here the unit K for the Gibbs energy makes the first attempt fail; with the unit corrected, the second attempt returns, and the file still has nothing but the wrong headings of the first.
* **C145** `C145_again_refuted`: Whenever writing an output raises - in the headings, where a property has no unit, or in a line -, the next call of `toCSV` on this output writes nothing, to whatever file, with whatever units and results by then, even if it returns.
* **C146** `C146_electro_refuted`: The X Born coefficient is written twice: the table of electric properties has 15 headings and rows of 16 cells, and from the heading of Y on every cell belongs to the heading before it.
* **C146** `C146_early_refuted`: A record written before the file is opened is lost without an exception, and the file has no headings: the flag that they have been written is set although nothing was.
* **C146** `C146_reopen_refuted`: Opening another file without closing the first makes the stream fail: the second file is not created, and what is written afterwards is in neither.
* **C146** `C146_comma_refuted`: A symbol with a comma, as in the names of organic substances, shifts all its cells by one.
* **C146** `C146_folder_refuted`: A program called without a path gets its own name as the folder: the files are looked for below the program file.
* **C147** `C147_unread_refuted`: Eight of the lines for substances ask for parameters under a key the parser does not know: whatever is filled in, reading the entry changes no parameter. For `solute_holland_powell98` the parser knows the key without the last letter.
* **C147** `C147_missing_refuted`: The lines for three equations of state of gases ask for no parameters, though the equations read seven critical parameters: a record made from the line has none, and calculating with it reads beyond the end of an empty vector.
* **C148** `C148_refuted`: A batch that is asked for two substances at 25 °C and 1 bar and then for a third at the same conditions; a Python program that asks for two substances at the same conditions, whatever the calculation.
* **C149** `C149_refuted`: For each of the misdefined names the conversion to the unit's own SI expression is refused: the tesla, its spellings and the gauss are not accepted as kg/(s²·A), nor the powers of the bar as powers of kg/(m·s²).
* **C149** `C149_tesla_refuted`: A tesla is taken as one weber times a square metre, and refused as one weber per square metre, for every number.
* **C149** `C149_acre_refuted`: An acre is 43560 square feet; with the table's own foot one acre is more than 43560.17 square feet, because the acre is the survey unit and the foot the international one.
* **C150** `C150_refuted`: Asked for the points from 0 to 1 in steps of 0.1, the loop gives twelve points; the last is 1.1 and beyond the maximum, the eleventh is not 1.
* **C150** `C150_divergence_refuted`: A positive step does not suffice: from 2^53 to 2^53 + 2 in steps of 1 the loop never ends, for 2^53 + 1 is rounded to 2^53.
* **C151** `C151_refuted`: At 16.9 MPa the second symbol of a batch is computed at another pressure than it is alone: the pressure is converted to Pa and back for every symbol, and 16.9 does not come back.
* **C151** `C151_report_refuted`: Asked for 10.7 bar, the batch reports its results for another number.
* **C152** `C152_temperature_refuted`: With the default of one digit the temperature 298.15 K stands in the file as 298.1, as do 298.11 K and 298.14 K: the rows cannot be told apart.
* **C152** `C152_small_refuted`: The digits are places after the point, and setting a unit does not change them: every number below half a unit of the last digit is written as zero. With the default of three digits for volumes, every volume below 0.0005 (22.7 cm³ in m³, for instance) is written as 0.000.
* **C153** `C153_refuted`: C153 fails at pressure 0: for the neutral solute N at 280 K, an engine that evaluates the arguments from left to right and one that evaluates them from right to left both answer and hand the saturation pressure back, but with different G.
* **C154** `C154_refuted`: C154 fails for solutes of which the pressure is read first: with the arguments evaluated from left to right, the answer for N at pressure 0 is not the answer at the pressure handed back.
* **C154** `C154_reaction_refuted`: C154 fails for reactions whatever the order of the arguments: the mineral A comes before H2O@ in the map of reactants, so it is calculated at pressure 0 while water, and the variable, are at the saturation pressure.
* **C155** `C155_cork_refuted`: For every record and after any requests: G at the reference state is the recorded one, but wherever the fugacity coefficient is not 1 there, H and S are not both the recorded ones.
* **C155** `C155_stp_refuted`: The same for H2O and CO2 with the equation of Sterner and Pitzer.
* **C155** `C155_real_gas_any_refuted`: For every record of a gas with one of the three equations of state, above or below the critical temperature and whichever root is taken, and after any requests: at the reference state G is the recorded one, H − T S differs from the recorded value by R T ln φ, and so wherever the fugacity coefficient φ is not 1, H and S are not both the recorded ones, and G = H − T S is lost if the record has it. (Outside are states where no root exceeds the volume of the molecules, which get φ = e¹⁰⁰⁰.)
* **C155** `C155_critical_refuted`: A record of a gas with one of the Peng-Robinson models whose reference temperature is its critical temperature: asked for at its reference state, after any requests, the engine has no H and S for it (0/0, for which the model gives no answer at all), although they are recorded.
* **C155** `C155_real_gas_refuted`: The equations of state add their residual enthalpy and entropy to the recorded values but leave G as it is. For every gas above its critical temperature whose attraction outweighs the volume of the molecules, H and S at the reference state are not both the recorded ones, and if the recorded values satisfied G = H − T S (with the same reference for all three), the reported ones do not.
* **C155** `C155_birch_refuted`: `thermoPropertiesMinBMGottschalk` sets the volume only away from the reference state: at the reference temperature and pressure every such solid is reported with the volume zero its heat capacity left, whatever volume is recorded.
* **C155** `C155_ideal_gas_refuted`: The recorded volume of an ideal gas is not used: at its own reference state it is reported with R T / P, so with another volume than recorded wherever the two differ, as for a record without volume.
* **C155** `C155_interval_refuted`: `thermoPropertiesEmpCpIntegration` takes the reference properties as those at the reference temperature, but integrates from there with the coefficients of the first interval to its upper end, even downwards, and goes on through the later intervals. A mineral with heat capacities of 40 J/(mol K) up to 250 K and 60 J/(mol K) above has, at its own reference state of 298.15 K and 1 bar, an enthalpy of 963 J/mol more than recorded.
* **C155** `C155_landau_refuted`: `thermoPropertiesMinHPLandau` counts its increments from zero pressure, not from the reference pressure (C36), and the models of the volume count theirs from the reference pressure: at its reference state a mineral with the transition entropy and the bulk modulus of quartz, ordering at 124 °C and with a transition volume, has a larger Gibbs energy and a smaller entropy and enthalpy than recorded - by little: 0.004 J/mol, 0.0002 J/(mol K) and 0.05 J/mol.
* **C155** `C155_hp98_refuted`: The increments of G and H are taken from zero pressure, not from the reference pressure: at the reference state they are P (V - K β) with K = (Cp - Tr b)/(Tr dα/dT), not zero, for every solute whose volume is not K β, and every pressure but zero.
* **C156** `C156_refuted`: A database need not have the solvent "H2O@" of the preferences: the engine then takes the last aqueous solvent of the database, in the order of the symbols, without a word. With one solvent, "W1", a solute has the entropy 130 J/(mol K) at 596.3 K; adding a second solvent, "W2", which nothing refers to, makes it 170.
* **C157** `C157_refuted`: A species written twice counts once: the Gibbs energy of "A + A = B" is 5 - 2, not 5 - 2 * 2. A coefficient before a name that starts like an exponent swallows the name: "2 E1 = B" has the Gibbs energy of B, 5, not 5 - 2 * 3. Neither is reported.
* **C157** `C157_energy_refuted`: Asked for "A = B" with the internal energies 2 and 5 of A and B, the engine reports 5, that of B, and not 5 − 2.
* **C158** `C158_refuted`: **The Gibbs energy of every neutral species with a Born coefficient jumps at 5000.001 bar** when the dielectric properties of water come from the gems code: `Born92` sets the dielectric constant and the Born functions to zero beyond that pressure (and beyond 1000.001 °C) instead of reporting that the conditions are outside the model. So it is at every temperature and for every density of water, at which the dielectric constant is not zero; the jump is the Born coefficient over the dielectric constant.
* **C159** `C159_gems_refuted`: A pressure below 0.00611732 bar is replaced by the saturation pressure: asked for steam at 25 °C and 0.005 bar, which is within the range (it begins at 0.001 bar), the code answers for water at 0.0317 bar, with the density of the liquid as state 0 and that of the saturated vapour as state 1. The same for every such pressure, also a negative one.
* **C159** `C159_permittivity_refuted`: At 25 °C and 6000 bar, within the range of the equation of state, the code answers with a permittivity of zero and Born functions of zero, without an error: `Born92` ends at 1000 °C and 5000 bar and the check does not know.
* **C159** `C159_volume_refuted`: At 300 K and 2.156 GPa, within the range the model is called with, Newton's method jumps over the pole at volume zero and converges to a negative root: the model answers with a volume of −2.76 J/bar (−27.6 cm³/mol) and a density of −652 kg/m³, without an error.
* **C159** `C159_range_refuted`: The lower limit of the temperature that is handed to the check is not looked at: no temperature from 0 to 273.15 K is refused by it, and at 230 K and 0.1 GPa the model answers.
* **C160** `C160_error_refuted`: `WaterHGK` divides the caller's pressure by 1e5 before the calculation and multiplies it by 1e5 after it, which an error skips. Asked for water at -16 °C and 1 bar, outside its range, it raises and leaves 1 instead of 100000 Pa in the variable. The mineral A, asked for next with the same variable, gets the answer for 1 Pa.
* **C160** `C160_low_refuted`: A pressure below 611.732 Pa is replaced by the saturation pressure: asked for water at 25 °C and 500 Pa, `WaterHGK` answers for 3169 Pa and leaves this pressure in the variable.
* **C161** `C161_unusable_refuted`: The functions that set or tell the calculation methods, the class and the aggregate state of a substance or a reaction cannot be used from Python: their enumerations are not registered. Setting is refused whatever is given (`substance.setMethod_T(…)` raises `TypeError` for every argument), and asking (`substance.method_T()`) raises `TypeError` when the result is converted. A `Substance` made in Python therefore never gets methods of calculation other than through JSON. Likewise `get_water_triple_data()`: neither the container nor `WaterTripleProperties` can be converted.
* **C161** `C161_empty_refuted`: With empty lists a call is ambiguous, and the first definition wins: `batch.thermoPropertiesSubstance([], [], [], [])` is taken for the calculation with given results, also by a caller who means no temperatures and no pressures; defined in the other order it would be the other one.
* **C161** `C161_loggers_refuted`: The descriptions of `update_loggers` and `clear_loggers` (PyThermoFun.cpp:52-53) give default values for three arguments: `update_loggers()` is refused, since no defaults are defined, and so is `clear_loggers` with the three arguments described; it takes the name of the file alone.
* **C161** `C161_dangling_refuted`: A reference taken with `element`, `substance` or `reaction` does not keep its database alive: `s = Database(…).substance("Calcite")` followed by any use of `s` reads freed memory.
* **C162** `C162_energy_refuted`: A = B, B = E1 and A = E1 are a cycle, and U of the first two together differs from that of the third: with 2, 5 and 3 for the internal energies of A, B and E1 the engine reports 5, 3 and 3, those of the last species of each reaction (C43).
* **C162** `C162_gas_refuted`: X (defined by a reaction) = Y (a gas), Y = Z (a mineral) and X = Z are a cycle. At every temperature and every pressure other than 1 bar G around it is not zero: in the first reaction the gas is taken without its dependence on pressure, because X before it in the map of species has switched the correction off (C84), in the second with it.
* **C163** `C163_edited_refuted`: A database is read, a charge set by hand, and the database written out and read again: the charge is lost, without a message. The text the record hands out is still that of the file.
* **C163** `C163_created_refuted`: `substance("A")` creates a record without text. Written out, its empty text ends the reading of the texts behind it: the substances after it are missing from the copy, and no exception says so.
* **C163** `C163_valence_refuted`: `setElement` with a text fills in the valence the text leaves out, in the record only.
* **C163** `C163_label_refuted`: A substance whose properties contain the key `_label` with the value "element" is read as a substance from a file, its text as an element: the copy has an element more and a substance less.
* **C164** `C164_warning_refuted`: The charge of Na+ goes from 0 to 1, and the warning says that the record's charge 1 was updated to 1: the charge is read after it has been set.
* **C164** `C164_fraction_refuted`: A site with the formula charge 0.5 gets the charge 0, and every further call warns of it again.
* **C164** `C164_halfway_refuted`: A formula that cannot be parsed ends the loop with an exception when the substances before it have their new charges and those after it have not.
* **C165** `C165_dense_refuted`: At 10⁵ bar and above, and below the lower temperature of the record at any pressure, the gas is ideal again. A gas with the critical temperature 300 K and pressure 74 bar at 300 K and 10⁵ bar gets the fugacity coefficient 1 and a volume more than a hundred times smaller than its own covolume b; at 200 K, below the lower end 250 K of its range, and 1000 bar it gets φ = 1 and a volume smaller than b. (The check of the bounds of the method changes only status and message.)
* **C166** `C166_hydrogen_refuted`: By hydrogen at 1000 K and 40 kbar in the CORK model, within the limits of the program (10000 K, 100 kbar): the volume is negative, because the term linear in the pressure is negative above 8.27 times the critical temperature, 341 K for hydrogen.
* **C166** `C166_methane_refuted`: By methane at 300 K in the CORK model, between 40 and 60 kbar: the volume grows with the pressure.
* **C166** `C166_steam_refuted`: By H2O above 695 K in the CORK model, at every temperature at which the cubic equation has a single solution at 2 kbar: the virial part begins there with the fourth root of the pressure difference and a positive coefficient, so that at pressures just above 2 kbar the volume is larger than at 2 kbar.
* **C166** `C166_hot_refuted`: Above 6965 K (with the reference temperature 298.15 K) the bulk modulus of the Murnaghan equation is negative and nothing refuses it: at 7298.15 K a mineral with the bulk modulus 1000 kbar grows when the pressure rises from 1 to 2 kbar.
* **C166** `C166_berman_refuted`: The volume of the Berman model is a parabola in the pressure. With the parameters of α-quartz (-2.434·10⁻⁶ and 10.137·10⁻¹² per bar) it passes its minimum at 120 kbar; at 200 kbar the mineral is smaller than at 300 kbar.
* **C167** `C167_zero_refuted`: By a species whose value is 0 with an uncertainty (a record of the kind `0 ± 1`, as an element or a reference ion may have): multiplying by the coefficient drops the uncertainty, because it is computed from the relative one. A = B with G(A) = 0 ± 3 and G(B) = 7 ± 4 is reported as 7 ± 4, instead of ± 5.
* **C167** `C167_equilibrium_refuted`: At equilibrium: for A = B with G(A) = 7 ± 3 and G(B) = 7 ± 4 the engine gives ΔG = 0 ± 5 and ln K = 0 and log K = 0 without any uncertainty.
* **C167** `C167_closing_refuted`: For the reaction that defines a substance: A = X has G = 3 ± 1 in its record, A has 2 ± 2 and X is defined by the reaction. Computed from its species, the same reaction has the recorded value 3 again, but the uncertainty 3: that of A is counted twice, although it cancels, because the uncertainties are taken to be independent.
* **C168** `C168_documented_refuted`: The comment above `location` (Exception.cpp:70-72) promises that for `/home/user/gitThermoFun/ThermoFun/src/Substance.cpp` the location is `ThermoFun/src/Substance.cpp`; it is `...user/gitThermoFun/ThermoFun/src/Substance.cpp`, the last 45 characters.
* **C168** `C168_path_refuted`: Errors raised on the same line of two different files can have the same text: only the last 45 characters of a path are kept (Exception.cpp:80-81).
* **C168** `C168_lines_refuted`: Two different errors have the same text when their texts contain line breaks: the error of one runs on into the reason of the other, as the texts are written as they are (Exception.cpp:97-98).
* **C168** `C168_forged_refuted`: A symbol with a line break forges the reason: asking the database for the substance `x⏎*** Reason: all is well` gives a message whose reason reads `all is well` in the database.`
* **C168** `C168_file_refuted`: Asking a database for a record it does not have gives an error that names no file, only a line: `Location: :179`, `:187` or `:195`, whatever the symbol; so do eleven further places that raise errors directly (Database.cpp:18-25 and others set `line` and leave `file` empty).
* **C168** `C168_range_refuted`: Every query of the model of Zhang and Duan for water outside its range (hotter than 2273.15 K or colder than 0 K, above 3·10¹⁰ Pa or below 10⁸ Pa) reads a line number that was never set: `checkModelValidity` (ThermoModelsSolvent.cpp:17-46) leaves `exception.line` unset and the message prints it. At 300 K and 1 bar, for example.
* **C168** `C168_log_refuted`: The record in the log does not name the place of the error: wherever `funError` is called, the log says line 222, a line of Exception.cpp itself; the place given by the caller goes into the text of the exception only (Exception.cpp:102 logs the line of `RaiseError`).
* **C168** `C168_both_refuted`: Asking for the console and a log file at once gives the console only: nothing reaches the file (Exception.cpp:36-47 uses the file only in the `else` branch).
* **C168** `C168_unopened_refuted`: When the log file cannot be opened, the error comes after the old sinks were cleared: from then on nothing is logged anywhere (Exception.cpp:34-35 before 44).
* **C169** `C169_transition_refuted`: The volume that `thermoPropertiesMinHPLandau` leaves (C70) reaches the caller: the Murnaghan model adds its own to it. Through the engine, a mineral with the transition entropy and volume and the elastic constants of quartz is reported at 25 °C and 2 bar with a volume that is not the pressure derivative of the Gibbs energy reported with it, but smaller by more than 0.004 J/bar.
* **C169** `C169_reference_refuted`: For every mineral with a table of heat capacities, a Landau transition above its reference temperature and the Murnaghan equation of state, whose data hang together: at the reference temperature G has a limit for pressures that go to the reference pressure, but at that pressure another value is answered, less by the integral of the volume from zero pressure. So there G has no slope in pressure at all, let alone V.
* **C169** `C169_reference_temperature_refuted`: For the same minerals, whether they are above or below their transition: at the reference pressure G has a limit for temperatures that go to the reference temperature, and there another value is answered. So G has no slope in temperature at the reference point either, let alone -S.
* **C170** `C170_equation_refuted`: `fromEquation` does not empty the reactants: whatever equation a reaction is given, each species it had before and that the equation does not name stays, with its old coefficient, and takes part in every property calculated from the reactants.
* **C170** `C170_setEquation_refuted`: `setEquation` changes the text alone: the reactants stay those of the equation before, for every reaction and every text; and `setReactants` leaves the equation as it was. The reaction "A=B" that is given the equation "A=C" is calculated with B.
* **C171** `C171_heavy_refuted`: For large acentric factors: the function (1 + k (1 − √(T/Tc)))² is used at all temperatures; it has a zero at √(T/Tc) = 1 + 1/k and rises again behind it, and with k > 1 the attraction gets as strong again as below the critical temperature. A molecule with Tc = 500 K and the acentric factor 1 condenses again at 8000 K, which is inside the range of temperatures the code accepts.
* **C171** `C171_inflexion_refuted`: At single pressures: where the root is the inflexion point of the cubic the solver divides 0 by 0 (`C99_inflexion_refuted`), and such pressures exist for ordinary gases. A gas with the critical constants of carbon dioxide, six degrees above its critical temperature, has a pressure between 82.6 and 97 bar at which no property is returned, although the equation has one volume there.
* **C172** `C172_cork_limit_refuted`: Fails for CORK fluids at the lower temperature limit of every record: below it the residual enthalpy and entropy are zero, and wherever the fugacity coefficient at the limit is not 1, they do not both tend to the values there.
* **C172** `C172_stp_limit_refuted`: Fails for Sterner-Pitzer fluids in the same way.
* **C172** `C172_heat_limit_refuted`: Fails for the three cubic gas models as well, also where the equation has several volumes: at the lower temperature limit of every record H and S do not both tend to their values there, wherever the fugacity coefficient is not 1 (nor e¹⁰⁰⁰, which stands for the lack of a root above the volume of the molecules).
* **C172** `C172_prsv_refuted`: The PRSV model drops its coefficients k1 to k3 at the critical temperature. For every record with k1 ≠ 0 and every pressure at which the equation has a single volume at the critical temperature, G and the volume come together there from both sides, but the enthalpy and the entropy jump, by an amount proportional to k1.
* **C172** `C172_nan_refuted`: At the critical temperature itself: both Peng-Robinson models return NaN for H and S there, for every record and every pressure with a single volume, although the values on both sides have limits (`C172_critical_partial`).
* **C172** `C172_limit_refuted`: At the lower temperature limit of every record, where the gas models change from an ideal to a real gas without a transition: from below the residual properties are zero and the volume tends to RT/P, from above the volume tends to that of the equation of state, which is another unless the ideal volume happens to satisfy the equation.
