{
 "claims": [
  {
   "property": "C01",
   "status": "proved",
   "theorems": [
    "ThermoFun.C01_derivatives_exact"
   ],
   "note": ""
  },
  {
   "property": "C02",
   "status": "proved",
   "theorems": [
    "ThermoFun.C02_status_propagation"
   ],
   "note": ""
  },
  {
   "property": "C03",
   "status": "partial",
   "theorems": [
    "ThermoFun.C03_err_nonneg",
    "ThermoFun.C03_err_add_sub",
    "ThermoFun.C03_err_mul_div",
    "ThermoFun.C03_compound_err_refuted",
    "ThermoFun.C03_divL_err_refuted",
    "ThermoFun.C03_function_err_partial",
    "ThermoFun.C03_function_err_refuted",
    "ThermoFun.C03_compound_err_partial"
   ],
   "note": "Error bounds of free operators proved; refuted for compound operators and double/ThermoScalar, witnesses given, rest partial. Error of exp and pow proved; log and sqrt refuted."
  },
  {
   "property": "C04",
   "status": "proved",
   "theorems": [
    "ThermoFun.C04_compound_eq_free",
    "ThermoFun.C04_compound_double"
   ],
   "note": ""
  },
  {
   "property": "C05",
   "status": "proved",
   "theorems": [
    "ThermoFun.C05_memoizeN_transparent",
    "ThermoFun.C05_memoize_transparent"
   ],
   "note": ""
  },
  {
   "property": "C06",
   "status": "proved",
   "theorems": [
    "ThermoFun.C06_bounded"
   ],
   "note": ""
  },
  {
   "property": "C07",
   "status": "proved",
   "theorems": [
    "ThermoFun.C07_recursion_bound",
    "ThermoFun.C07_recursive_transparent"
   ],
   "note": ""
  },
  {
   "property": "C08",
   "status": "partial",
   "theorems": [
    "ThermoFun.C08_fifo",
    "ThermoFun.C08_lru_refuted",
    "ThermoFun.C08_capacity_one_never_hits"
   ],
   "note": "FIFO order proved; the documented least-recently-used order is refuted and capacity 1 never hits."
  },
  {
   "property": "C09",
   "status": "partial",
   "theorems": [
    "ThermoFun.C09_fresh_refuted",
    "ThermoFun.C09_fresh_partial"
   ],
   "note": "Refuted: cached answers are served after the database or preferences change; partial for histories without change."
  },
  {
   "property": "C10",
   "status": "partial",
   "theorems": [
    "ThermoFun.C10_default_refuted",
    "ThermoFun.C10_throw_refuted",
    "ThermoFun.C10_last_partial"
   ],
   "note": "Refuted: default-valued first key hits the empty cache; a throwing call leaves a wrong pair. Partial for other histories."
  },
  {
   "property": "C11",
   "status": "partial",
   "theorems": [
    "ThermoFun.C11_writeback_refuted",
    "ThermoFun.C11_dangling_refuted",
    "ThermoFun.C11_reference_partial"
   ],
   "note": "Refuted: pressure is not written back on a cache hit; reference keys dangle. Partial for live unshared keys."
  },
  {
   "property": "C12",
   "status": "proved",
   "theorems": [
    "ThermoFun.Units.C12_proportional",
    "ThermoFun.Units.C12_composes",
    "ThermoFun.Units.C12_reversible",
    "ThermoFun.Units.C12_identity"
   ],
   "note": ""
  },
  {
   "property": "C13",
   "status": "proved",
   "theorems": [
    "ThermoFun.Units.C13_factors",
    "ThermoFun.Units.C13_acyclic"
   ],
   "note": ""
  },
  {
   "property": "C14",
   "status": "proved",
   "theorems": [
    "ThermoFun.Units.C14_exact",
    "ThermoFun.Units.C14_total",
    "ThermoFun.Units.C14_reversible",
    "ThermoFun.Units.C14_composes",
    "ThermoFun.Units.C14_monotone",
    "ThermoFun.Units.C14_scales"
   ],
   "note": ""
  },
  {
   "property": "C15",
   "status": "partial",
   "theorems": [
    "ThermoFun.Units.C15_number_or_error",
    "ThermoFun.Units.C15_iff_partial",
    "ThermoFun.Units.C15_sound_partial",
    "ThermoFun.Units.C15_dimensionless_refuted",
    "ThermoFun.Units.C15_fractional_refuted",
    "ThermoFun.Units.C15_transitive_refuted",
    "ThermoFun.Units.C15_relation"
   ],
   "note": "Raises on unknown units and never undefined on well-formed expressions: proved. 'Number iff same dimension' proved except for dimensionless names, non-kelvin temperatures and half powers, where it is refuted (m/m vs 1, K^0.5 vs m/m, degC not transitive)."
  },
  {
   "property": "C16",
   "status": "proved",
   "theorems": [
    "ThermoFun.Units.C16_meaning"
   ],
   "note": ""
  },
  {
   "property": "C17",
   "status": "partial",
   "theorems": [
    "ThermoFun.Units.C17_empty_refuted",
    "ThermoFun.Units.C17_leading_operator_refuted",
    "ThermoFun.Units.C17_empty_parentheses_refuted",
    "ThermoFun.Units.C17_garbage_accepted_refuted",
    "ThermoFun.Units.C17_no_undefined_partial"
   ],
   "note": "Refuted: empty string, leading operator and empty parentheses are undefined behaviour; 'kg(m)' is accepted as g. Partial: all other strings give a number or an exception."
  },
  {
   "property": "C18",
   "status": "partial",
   "theorems": [
    "ThermoFun.Units.C18_powers_partial",
    "ThermoFun.Units.C18_bar_refuted"
   ],
   "note": "Refuted for bar^2..bar^4 (defined as powers of K); proved for every other whole power."
  },
  {
   "property": "C19",
   "status": "partial",
   "theorems": [
    "ThermoFun.Equation.C19_round_trip",
    "ThermoFun.Equation.C19_names_refuted",
    "ThermoFun.Equation.C19_reuse_refuted"
   ],
   "note": "Round trip proved for all equations with admissible distinct names; refuted for names a coefficient runs into (2 E1), names starting with other characters, and re-used reaction objects."
  },
  {
   "property": "C20",
   "status": "partial",
   "theorems": [
    "ThermoFun.Equation.C20_net_refuted",
    "ThermoFun.Equation.C20_single_partial"
   ],
   "note": "Refuted: the last occurrence overwrites; species occurring once are right."
  },
  {
   "property": "C21",
   "status": "partial",
   "theorems": [
    "ThermoFun.C21_consistent",
    "ThermoFun.C21_both_refuted",
    "ThermoFun.C21_bounds_refuted",
    "ThermoFun.C21_defined_partial"
   ],
   "note": "Consistency proved for reactions with logK coefficients only; refuted when both kinds of coefficients are given (Cp not dH/dT) and when coefficients are missing (read past the end); definedness characterised exactly."
  },
  {
   "property": "C22",
   "status": "partial",
   "theorems": [
    "ThermoFun.C22_equilibrium",
    "ThermoFun.C22_three_term",
    "ThermoFun.C22_two_term_partial",
    "ThermoFun.C22_two_term_refuted",
    "ThermoFun.C22_missing_enthalpy_refuted",
    "ThermoFun.C22_missing_entropy_refuted",
    "ThermoFun.C22_one_term",
    "ThermoFun.C22_constant_G_refuted"
   ],
   "note": "EK3 fully proved, EK2 when the reference Cp is zero; refuted: EK2 reports a Cp it does not use, missing H is derived at the current T, EK1 reports H = G."
  },
  {
   "property": "C23",
   "status": "partial",
   "theorems": [
    "ThermoFun.C23_downgrade",
    "ThermoFun.C23_zero_enthalpy_refuted"
   ],
   "note": "Downgrade characterised for all data; refuted: known H = 0 selects constant-G with an unknown G."
  },
  {
   "property": "C24",
   "status": "partial",
   "theorems": [
    "ThermoFun.C24_frozen_refuted",
    "ThermoFun.C24_reference_partial"
   ],
   "note": "Refuted: with Cp coefficients only, reported H and S never change with T; partial: G = H - TS and reported Cp."
  },
  {
   "property": "C25",
   "status": "partial",
   "theorems": [
    "ThermoFun.C25_logK_round_trip",
    "ThermoFun.C25_entropy_refuted",
    "ThermoFun.C25_Cp_round_trip",
    "ThermoFun.C25_reference_partial",
    "ThermoFun.C25_reference_refuted",
    "ThermoFun.C25_error"
   ],
   "note": "Round trips proved for all temperature-dependent coefficients and the enthalpy constant; entropy constant exactly when K4 = 0; refuted otherwise (K[4]/TK*TK)."
  },
  {
   "property": "C26",
   "status": "proved",
   "theorems": [
    "ThermoFun.C26_DolejsManning",
    "ThermoFun.C26_FrantzMarshall",
    "ThermoFun.C26_RyzhenkoBryzgalin"
   ],
   "note": "All three models: Gibbs relation, derivatives, volume and equilibrium constant consistent along any smooth density function."
  },
  {
   "property": "C27",
   "status": "partial",
   "theorems": [
    "ThermoFun.C27_declared_partial",
    "ThermoFun.C27_DolejsManning_refuted",
    "ThermoFun.C27_logK_refuted"
   ],
   "note": "Frantz-Marshall and Ryzhenko-Bryzgalin compute the declared formula; refuted for Dolejs-Manning (computes Frantz-Marshall) and for log K (left undefined)."
  },
  {
   "property": "C28",
   "status": "proved",
   "theorems": [
    "ThermoFun.C28_exact"
   ],
   "note": ""
  },
  {
   "property": "C29",
   "status": "partial",
   "theorems": [
    "ThermoFun.C29_integrals",
    "ThermoFun.C29_reported_partial",
    "ThermoFun.C29_refuted"
   ],
   "note": "Integrals proved exact for all ten coefficients; refuted for the reported Cp when the tenth coefficient is nonzero (integer division 1/2); partial when it is zero."
  },
  {
   "property": "C30",
   "status": "proved",
   "theorems": [
    "ThermoFun.C30_transitions"
   ],
   "note": ""
  },
  {
   "property": "C31",
   "status": "partial",
   "theorems": [
    "ThermoFun.C31_partial",
    "ThermoFun.C31_refuted"
   ],
   "note": "Refuted at the upper end of the last interval, in gaps, without intervals, with too few transitions; partial for complete adjoining tables elsewhere."
  },
  {
   "property": "C32",
   "status": "partial",
   "theorems": [
    "ThermoFun.C32_partial",
    "ThermoFun.C32_refuted"
   ],
   "note": "Refuted for coefficient lists of different length (array not cleared); partial for lists of one length."
  },
  {
   "property": "C33",
   "status": "partial",
   "theorems": [
    "ThermoFun.C33_constant_volume",
    "ThermoFun.C33_ideal_gas_partial",
    "ThermoFun.C33_ideal_gas_refuted"
   ],
   "note": "Constant volume proved; refuted for the ideal gas (V(P-Pr) instead of the integral); partial for the other identities."
  },
  {
   "property": "C34",
   "status": "partial",
   "theorems": [
    "ThermoFun.C34_linear_partial",
    "ThermoFun.C34_refuted"
   ],
   "note": "Refuted: powers of T-Tr replaced by Tr^2; partial when the second and third volume coefficient are zero."
  },
  {
   "property": "C35",
   "status": "partial",
   "theorems": [
    "ThermoFun.C35_consistent_partial",
    "ThermoFun.C35_missing_parameters",
    "ThermoFun.C35_reference_refuted"
   ],
   "note": "Proved everywhere but at the reference point, where G jumps (refuted there)."
  },
  {
   "property": "C36",
   "status": "proved",
   "theorems": [
    "ThermoFun.C36_consistent",
    "ThermoFun.C36_reference"
   ],
   "note": ""
  },
  {
   "property": "C37",
   "status": "partial",
   "theorems": [
    "ThermoFun.C37_partial",
    "ThermoFun.C37_refuted",
    "ThermoFun.C37_reaktoro_entry_partial",
    "ThermoFun.C37_gems_entry_partial"
   ],
   "note": "dG/dT = -S, dH/dT = Cp, dS/dT = Cp/T, A = U - TS proved for both implementations, also at the entry points from solvent density and dielectric function; refuted: dG/dP = V (unit factor 4.184/4.184004 between G and V) and U = H - PV (P in bar)."
  },
  {
   "property": "C38",
   "status": "partial",
   "theorems": [
    "ThermoFun.C38_reaktoro",
    "ThermoFun.C38_gems_partial",
    "ThermoFun.C38_gems_refuted"
   ],
   "note": "Proved for the reaktoro implementation, all derivatives; gems refuted (wTP is never set), partial for w, wT, wP, wTT."
  },
  {
   "property": "C39",
   "status": "partial",
   "theorems": [
    "ThermoFun.C39_hgk_partial",
    "ThermoFun.C39_hgk_refuted",
    "ThermoFun.C39_wp95_partial",
    "ThermoFun.C39_partial",
    "ThermoFun.C39_refuted"
   ],
   "note": "All derivatives and energies proved for every Helmholtz function when densityT is nonzero; refuted at a density maximum (densityTT divides by densityT = 0). Instantiated with the two equations of state: with Wagner-Pruss a density solution exists and is consistent around every regular state; with Haar-Gallagher-Kell all but densityTT and densityTP, which are refuted."
  },
  {
   "property": "C40",
   "status": "proved",
   "theorems": [
    "ThermoFun.C40_idealGas"
   ],
   "note": ""
  },
  {
   "property": "C41",
   "status": "proved",
   "theorems": [
    "ThermoFun.Engine.C41_hydrogen",
    "ThermoFun.Engine.C41_hydrogen_record"
   ],
   "note": "By symbol and by record, after any history of queries, failing ones included."
  },
  {
   "property": "C42",
   "status": "proved",
   "theorems": [
    "ThermoFun.Engine.C42_hess",
    "ThermoFun.Engine.C42_reverse"
   ],
   "note": "Values and both derivatives of Cp, G, H, S, V; ln K, log K; reversal when the engine gives the same answers for the species (see C45)."
  },
  {
   "property": "C43",
   "status": "partial",
   "theorems": [
    "ThermoFun.Engine.C43_hess_refuted",
    "ThermoFun.Engine.C43_hess_partial"
   ],
   "note": "Refuted: U, A and Cv are overwritten in every round of the loop; partial: they are the sum exactly when the contributions of all species but the last cancel."
  },
  {
   "property": "C44",
   "status": "partial",
   "theorems": [
    "ThermoFun.Engine.C44_closure_partial",
    "ThermoFun.Engine.C44_closure_refuted"
   ],
   "note": "Proved without the fallback and when no constant-volume correction follows; refuted with that correction (reacDCthermoProperties:647-652)."
  },
  {
   "property": "C45",
   "status": "partial",
   "theorems": [
    "ThermoFun.Engine.C45_history_partial",
    "ThermoFun.Engine.C45_history_refuted",
    "ThermoFun.Engine.C45_nomethods_refuted",
    "ThermoFun.Engine.C45_solvent_refuted"
   ],
   "note": "Refuted in three ways (cached gas properties, flag left on by a failing reaction or by a record without methods, solvent symbol); proved for databases with H2O@, without gas models and without circular definitions."
  },
  {
   "property": "C46",
   "status": "partial",
   "theorems": [
    "ThermoFun.Engine.C46_terminates_partial",
    "ThermoFun.Engine.C46_terminates_refuted"
   ],
   "note": "Refuted: a record marked REACDC that names no reaction recurses without end; proved with an explicit depth bound for databases without such records and without circular definitions."
  },
  {
   "property": "C47",
   "status": "proved",
   "theorems": [
    "ThermoFun.Engine.C47_fallback"
   ],
   "note": "For substances with methods of their own (not Akinfiev-Diamond): by record, in any state of the engine."
  },
  {
   "property": "C48",
   "status": "partial",
   "theorems": [
    "ThermoFun.Engine.C48_steam",
    "ThermoFun.Engine.C48_berman",
    "ThermoFun.Engine.C48_fallback_refuted"
   ],
   "note": "Proved without the fallback for substances with methods of their own; refuted with the fallback, which comes after the conversion."
  },
  {
   "property": "C49",
   "status": "partial",
   "theorems": [
    "ThermoFun.Engine.C49_methods_partial",
    "ThermoFun.Engine.C49_ignored_refuted"
   ],
   "note": "Refuted for 11 pressure, 24 temperature and 19 general codes; proved for the codes with a model: EOS, then T, then P, each once."
  },
  {
   "property": "C50",
   "status": "proved",
   "theorems": [
    "ThermoFun.Js.C50_finite_maps",
    "ThermoFun.Js.C50_references",
    "ThermoFun.Js.C50_element_references"
   ],
   "note": "Proved for all operation sequences on the three maps, including references to records taken before and used after."
  },
  {
   "property": "C51",
   "status": "proved",
   "theorems": [
    "ThermoFun.Copies.C51_values",
    "ThermoFun.Copies.C51_copies"
   ],
   "note": "Proved for programs of any length over databases, record objects and references: they observe what they would if each variable held its own value. Addresses of destroyed objects are not reused in the model; references are used only while their record is there."
  },
  {
   "property": "C52",
   "status": "partial",
   "theorems": [
    "ThermoFun.Js.C52_prefix_partial",
    "ThermoFun.Js.C52_malformed_refuted",
    "ThermoFun.Js.C52_silent_refuted"
   ],
   "note": "Proved for every file: records are applied in order up to the first that raises, those before are kept. Refuted: a malformed name or label does not raise."
  },
  {
   "property": "C53",
   "status": "partial",
   "theorems": [
    "ThermoFun.Js.C53_own_elements_partial",
    "ThermoFun.Js.C53_overwrite_refuted",
    "ThermoFun.Js.C53_exception_refuted",
    "ThermoFun.Js.C53_created_partial",
    "ThermoFun.Js.C53_created_refuted"
   ],
   "note": "Proved after construction, add, set and an append that does not overwrite elements or fail; refuted: elements overwritten by appendData keep their old data in formulas, and a failing append leaves the table behind; an element created by element(symbol) that the element table lacks is unknown to formulas."
  },
  {
   "property": "C54",
   "status": "partial",
   "theorems": [
    "ThermoFun.Js.C54_substances",
    "ThermoFun.Js.C54_elements_refuted",
    "ThermoFun.Js.C54_equality_refuted",
    "ThermoFun.Js.C54_elements_partial",
    "ThermoFun.Js.C54_formula_partial"
   ],
   "note": "Proved for substances; refuted for elements of different valence; proved for elements whose valence is determined by symbol, name and class, and no element is lost from their formulas."
  },
  {
   "property": "C55",
   "status": "proved",
   "theorems": [
    "ThermoFun.Batch.C55_storage",
    "ThermoFun.Batch.C55_csv_rows",
    "ThermoFun.Batch.C55_csv_transposed"
   ],
   "note": ""
  },
  {
   "property": "C56",
   "status": "partial",
   "theorems": [
    "ThermoFun.Batch.C56_range_points",
    "ThermoFun.Batch.C56_range_exact",
    "ThermoFun.Batch.C56_overshoot_refuted",
    "ThermoFun.Batch.C56_divergence_refuted",
    "ThermoFun.Batch.C56_grid"
   ],
   "note": "Points of the range loop proved exactly; refuted: overshoot beyond the maximum, divergence for step <= 0."
  },
  {
   "property": "C57",
   "status": "partial",
   "theorems": [
    "ThermoFun.Batch.C57_independence_refuted",
    "ThermoFun.Batch.C57_independence_partial"
   ],
   "note": "Refuted when a query rewrites P = 0; partial otherwise."
  },
  {
   "property": "C58",
   "status": "partial",
   "theorems": [
    "ThermoFun.Batch.C58_alignment_refuted",
    "ThermoFun.Batch.C58_alignment_partial"
   ],
   "note": "Refuted for unknown names (columns shift); partial when all names are known."
  },
  {
   "property": "C59",
   "status": "partial",
   "theorems": [
    "ThermoFun.Batch.C59_grid_partial",
    "ThermoFun.Batch.C59_mislabel_refuted",
    "ThermoFun.Batch.C59_out_of_range_refuted"
   ],
   "note": "Refuted for incomplete grids and saturation pressures; partial for complete grids."
  },
  {
   "property": "C60",
   "status": "partial",
   "theorems": [
    "ThermoFun.Batch.C60_replace_spec",
    "ThermoFun.Batch.C60_no_separator",
    "ThermoFun.Batch.C60_underscore_refuted",
    "ThermoFun.Batch.C60_empty_divergence_refuted"
   ],
   "note": "Effect, termination and absence of the separator proved for non-empty separators without underscore; refuted for the others."
  },
  {
   "property": "C61",
   "status": "partial",
   "theorems": [
    "ThermoFun.Batch.C61_output_refuted",
    "ThermoFun.Batch.C61_output_partial"
   ],
   "note": "Refuted: outputs alias the batch; partial for reading the latest output."
  },
  {
   "property": "C62",
   "status": "partial",
   "theorems": [
    "ThermoFun.Js.C62_substances_partial",
    "ThermoFun.Js.C62_reactions",
    "ThermoFun.Js.C62_distinct_partial",
    "ThermoFun.Js.C62_distinct_reactions",
    "ThermoFun.Js.C62_ignored_refuted"
   ],
   "note": "Proved for all lists of documented codes except 41 and 42, which are refuted (silently ignored); proved for all reaction codes."
  },
  {
   "property": "C63",
   "status": "partial",
   "theorems": [
    "ThermoFun.Js.C63_complete_partial",
    "ThermoFun.Js.C63_leak_refuted",
    "ThermoFun.Js.C63_indeterminate_refuted"
   ],
   "note": "Proved for complete element records; refuted: entropy leaks into heat capacity, mass into volume; missing entropy and molar mass are indeterminate."
  },
  {
   "property": "C64",
   "status": "partial",
   "theorems": [
    "ThermoFun.Bounds.C64_substances_partial",
    "ThermoFun.Bounds.C64_records_refuted",
    "ThermoFun.Bounds.C64_hkf_units_refuted",
    "ThermoFun.Bounds.C64_reactions_partial",
    "ThermoFun.Bounds.C64_reactions_refuted"
   ],
   "note": "Proved for the check of substances and, except for ln K and log K, of reactions: silent within the limits, one message per computed property outside, no number changed. Refuted: limits of pressure are never read from records, so every pressure is reported; the reaktoro HKF model compares degrees Celsius and bar with K and Pa; the equilibrium constant of a reaction gets no message."
  },
  {
   "property": "C65",
   "status": "proved",
   "theorems": [
    "ThermoFun.Engine.C65_iequals_lower",
    "ThermoFun.Engine.C65_iequals_equivalence"
   ],
   "note": "Characters above 127 are not changed (C locale)."
  },
  {
   "property": "C66",
   "status": "partial",
   "theorems": [
    "ThermoFun.C66_copy_bound_refuted",
    "ThermoFun.C66_copy_answers_partial",
    "ThermoFun.C66_copy_bound_partial"
   ],
   "note": "Refuted: copied memo closures share the cache but not the usage list, so the bound fails; proved: answers stay correct and the cache never exceeds 2*max+1 entries."
  },
  {
   "property": "C67",
   "status": "partial",
   "theorems": [
    "ThermoFun.C67_copy_refuted",
    "ThermoFun.C67_copy_dangling_refuted",
    "ThermoFun.C67_own_data_partial"
   ],
   "note": "Refuted: a copied engine answers from the original; partial without copies."
  },
  {
   "property": "C68",
   "status": "partial",
   "theorems": [
    "ThermoFun.C68_generated_partial",
    "ThermoFun.C68_constant_refuted"
   ],
   "note": "Proved for two- and three-term methods; refuted for the one-term methods and for LGK."
  },
  {
   "property": "C69",
   "status": "partial",
   "theorems": [
    "ThermoFun.C69_density_partial",
    "ThermoFun.C69_RyzhenkoBryzgalin_refuted",
    "ThermoFun.C69_logK_energies_partial",
    "ThermoFun.C69_zero_enthalpy_refuted"
   ],
   "note": "U = H - PV and A = U - TS proved for the logK models with the reference enthalpy given, Frantz-Marshall and Dolejs-Manning; refuted for a zero enthalpy and for Ryzhenko-Bryzgalin (volume unit)."
  },
  {
   "property": "C70",
   "status": "partial",
   "theorems": [
    "ThermoFun.C70_heat_capacity_refuted",
    "ThermoFun.C70_volume_refuted",
    "ThermoFun.C70_ordered_refuted"
   ],
   "note": "Refuted for both volume and heat capacity, with explicit families of witnesses."
  },
  {
   "property": "C71",
   "status": "partial",
   "theorems": [
    "ThermoFun.C71_partial",
    "ThermoFun.C71_refuted"
   ],
   "note": "Refuted: Berman at the reference point and the constant-volume model without volume leave U and A untouched; partial: all other cases."
  },
  {
   "property": "C72",
   "status": "partial",
   "theorems": [
    "ThermoFun.C72_reaktoro",
    "ThermoFun.C72_gems_partial",
    "ThermoFun.C72_gems_wrong_sign",
    "ThermoFun.C72_gems_refuted"
   ],
   "note": "Proved for the reaktoro implementation; gems refuted (sign of dg/dP wrong above 1000 kg/m3, wPP and wTP never set), partial below 1000 kg/m3 for the derivatives it sets."
  },
  {
   "property": "C73",
   "status": "proved",
   "theorems": [
    "ThermoFun.C73_reference"
   ],
   "note": ""
  },
  {
   "property": "C74",
   "status": "partial",
   "theorems": [
    "ThermoFun.C74_partial",
    "ThermoFun.C74_refuted"
   ],
   "note": "Refuted: the reference Born functions Z and Y differ; volume and heat capacities agree, explicit difference for G, H, S."
  },
  {
   "property": "C75",
   "status": "proved",
   "theorems": [
    "ThermoFun.C75_molar"
   ],
   "note": ""
  },
  {
   "property": "C76",
   "status": "partial",
   "theorems": [
    "ThermoFun.C76_partial",
    "ThermoFun.C76_error_partial",
    "ThermoFun.C76_refuted"
   ],
   "note": "Refuted: the residual is tested before the last Newton step; proved: the step after the first iterate with residual below 1e-8 among 100 is returned, with a quadratic bound on its residual, else an error."
  },
  {
   "property": "C77",
   "status": "partial",
   "theorems": [
    "ThermoFun.C77_partial",
    "ThermoFun.C77_refuted"
   ],
   "note": "Refuted: waterPressureWagnerPruss evaluates HGK; HGK proved."
  },
  {
   "property": "C78",
   "status": "partial",
   "theorems": [
    "ThermoFun.C78_distance_partial",
    "ThermoFun.C78_partial",
    "ThermoFun.WP.C78_liquid_partial"
   ],
   "note": "Equal if the last tested iterate is a root; in general the carried derivatives are those reported for the last tested iterate plus the missing pressure times a bounded factor. At 298.15 K and 1 bar (search evaluated with verified intervals) the carried pressure derivative exceeds the reported one by 8e-34, relative 2e-27: strict equality fails, without consequence."
  },
  {
   "property": "C79",
   "status": "partial",
   "theorems": [
    "ThermoFun.C79_partial",
    "ThermoFun.C79_refuted",
    "ThermoFun.C79_deviation_partial"
   ],
   "note": "Proved for Wagner-Pruss; refuted for HGK (273.15 K used as triple point), with the exact deviation for all data."
  },
  {
   "property": "C80",
   "status": "partial",
   "theorems": [
    "ThermoFun.C80_partial",
    "ThermoFun.C80_refuted"
   ],
   "note": "Proved for every smooth density where the four temperature polynomials and the compressibility do not vanish; refuted at a root of a polynomial (quotient k'/k)."
  },
  {
   "property": "C81",
   "status": "partial",
   "theorems": [
    "ThermoFun.C81_partial",
    "ThermoFun.C81_refuted",
    "ThermoFun.C81_mixed_refuted",
    "ThermoFun.C81_unit_refuted"
   ],
   "note": "Second-order accuracy proved for TC > 0 and P > 0; refuted at 0 degC and P = 0 (0/0), for the mixed derivative, U and N (never set) and the unit of epsilonP (1/bar)."
  },
  {
   "property": "C82",
   "status": "partial",
   "theorems": [
    "ThermoFun.C82_newton",
    "ThermoFun.C82_fugacity",
    "ThermoFun.C82_density_partial",
    "ThermoFun.C82_refuted"
   ],
   "note": "Newton slope and fugacity relation proved; density derivatives proved except densityPP (refuted: factor 1e-5 instead of 1e-10)."
  },
  {
   "property": "C83",
   "status": "proved",
   "theorems": [
    "ThermoFun.C83_harrisAlder"
   ],
   "note": ""
  },
  {
   "property": "C84",
   "status": "partial",
   "theorems": [
    "ThermoFun.Engine.C84_correction_partial",
    "ThermoFun.Engine.C84_correction_refuted"
   ],
   "note": "Refuted when a species defined by a reaction comes first; proved when the species have methods of their own and do not use Akinfiev-Diamond."
  },
  {
   "property": "C85",
   "status": "partial",
   "theorems": [
    "ThermoFun.Engine.C85_change_refuted",
    "ThermoFun.Engine.C85_change_partial"
   ],
   "note": "Refuted for queries by symbol (cached value); proved for queries by record for substances with methods of their own."
  },
  {
   "property": "C86",
   "status": "partial",
   "theorems": [
    "ThermoFun.Engine.C86_derivatives_partial",
    "ThermoFun.Engine.C86_ddt_refuted",
    "ThermoFun.Engine.C86_ddp_refuted"
   ],
   "note": "Refuted for d lnK/dT from the species (less by G/(RT^2)) and for dG/dP with constant volume (0 instead of V); proved for d lnK/dP."
  },
  {
   "property": "C87",
   "status": "partial",
   "theorems": [
    "ThermoFun.Engine.C87_constant_volume_partial",
    "ThermoFun.Engine.C87_lnK_refuted"
   ],
   "note": "Refuted for ln K, which is not corrected; the other relations are proved for every reaction with a logK(T) function."
  },
  {
   "property": "C88",
   "status": "partial",
   "theorems": [
    "ThermoFun.Engine.C88_convention_refuted",
    "ThermoFun.Engine.C88_convention_partial"
   ],
   "note": "Refuted for reactions with the solvent, which is not converted; proved for reactions of other substances with methods of their own, on a new engine."
  },
  {
   "property": "C89",
   "status": "partial",
   "theorems": [
    "ThermoFun.Js.C89_mistaken_units_partial",
    "ThermoFun.Js.C89_expansivity_refuted"
   ],
   "note": "Proved for the mistaken units of the shipped databases; refuted for the right unit 1/K: the expansivity is then 1e5 times too small and the Murnaghan model ignores it."
  },
  {
   "property": "C90",
   "status": "proved",
   "theorems": [
    "ThermoFun.Js.C90_idempotent",
    "ThermoFun.Js.C90_last_wins"
   ],
   "note": "Proved for every file and database."
  },
  {
   "property": "C91",
   "status": "partial",
   "theorems": [
    "ThermoFun.Js.C91_default_units",
    "ThermoFun.Js.C91_stated_units_partial",
    "ThermoFun.Js.C91_hkf_units_refuted"
   ],
   "note": "Lists without units, with all units and with some units proved; refuted: a third HKF unit of (cal*K)/mol discards all stated units."
  },
  {
   "property": "C92",
   "status": "partial",
   "theorems": [
    "ThermoFun.Js.C92_substances",
    "ThermoFun.Js.C92_wrapped",
    "ThermoFun.Js.C92_reactions",
    "ThermoFun.Js.C92_elements_partial",
    "ThermoFun.Js.C92_unread_refuted"
   ],
   "note": "Proved for substances with documented methods other than 41 and 42, for reactions and for wrapped records; elements when all four numbers are present (C63). Refuted: the coefficients of the Berman, Birch-Murnaghan and Churakov-Gottschalk models are never read, so substances that declare the first two raise an error at every state."
  },
  {
   "property": "C93",
   "status": "partial",
   "theorems": [
    "ThermoFun.C93_partial",
    "ThermoFun.C93_refuted"
   ],
   "note": "Proved for all states off the critical density: everything except fTTT, whose ideal part has a wrong factor (refuted at low density for every temperature; fTTT is not used elsewhere in the library). At the critical density the code divides zero by zero."
  },
  {
   "property": "C94",
   "status": "partial",
   "theorems": [
    "ThermoFun.C94_partial",
    "ThermoFun.C94_refuted"
   ],
   "note": "Proved for first and second derivatives, fTTD and fDDD. Refuted: fTDD (a factor x missing in part 2, theta_r for theta_t in part 4) and fTTT (F/t^2 for 2F/t^2 in part 2) at 647.27 K and 693 kg/m3."
  },
  {
   "property": "C95",
   "status": "proved",
   "theorems": [
    "ThermoFun.C95_hgk",
    "ThermoFun.C95_wp95"
   ],
   "note": "Proved for both equations."
  },
  {
   "property": "C96",
   "status": "partial",
   "theorems": [
    "ThermoFun.C96_partial",
    "ThermoFun.C96_refuted"
   ],
   "note": "Proved for all parameters and all consistent water, except that dG/dP = V needs one molar mass: the model has 18.01528, the water properties 18.015268 g/mol (refuted for every solute with xi other than 1)."
  },
  {
   "property": "C97",
   "status": "partial",
   "theorems": [
    "ThermoFun.C97_an91_partial",
    "ThermoFun.C97_an91_refuted",
    "ThermoFun.C97_an91_volume_refuted",
    "ThermoFun.C97_hp98_partial",
    "ThermoFun.C97_hp98_refuted",
    "ThermoFun.C97_hp98_enthalpy_refuted"
   ],
   "note": "Anderson: everything proved but H (off by T (S - S298)) and V (constant), refuted. Holland-Powell: dG/dP = V proved; S = -dG/dT refuted at all temperatures but 500 K (wrong sign of the ln rho term above, extra term below), H refuted."
  },
  {
   "property": "C98",
   "status": "partial",
   "theorems": [
    "ThermoFun.C98_density",
    "ThermoFun.C98_dm10",
    "ThermoFun.C98_logK_partial",
    "ThermoFun.C98_logK_refuted",
    "ThermoFun.C98_hp98_partial",
    "ThermoFun.C98_hp98_refuted",
    "ThermoFun.C98_ad_partial",
    "ThermoFun.C98_ad_refuted",
    "ThermoFun.C98_fluids_refuted",
    "ThermoFun.Gas.C98_gas_refuted",
    "ThermoFun.Gas.C98_gas_heat_refuted",
    "ThermoFun.Gas.C98_gas_partial",
    "ThermoFun.Gas.C98_gas_entropy_partial",
    "ThermoFun.Gas.C98_prsv_k1_refuted",
    "ThermoFun.Gas.C98_gas_entropy_refuted",
    "ThermoFun.Gas.C98_srk_entropy_refuted",
    "ThermoFun.Gas.C98_pr78_entropy_refuted",
    "ThermoFun.Gas.C98_prsv_entropy_refuted",
    "ThermoFun.C98_landau_partial",
    "ThermoFun.C98_entropyCp_partial",
    "ThermoFun.C98_entropyCp_refuted",
    "ThermoFun.C98_empCp_partial",
    "ThermoFun.C98_empCp_refuted",
    "ThermoFun.C98_conMolVol",
    "ThermoFun.C98_idealGas",
    "ThermoFun.C98_berman_partial",
    "ThermoFun.C98_berman_refuted",
    "ThermoFun.C98_murnaghan_partial",
    "ThermoFun.C98_hkfReaktoro",
    "ThermoFun.C98_hkfGems",
    "ThermoFun.C98_an91",
    "ThermoFun.Gas.C98_critical_refuted"
   ],
   "note": "Proved for all density models of reactions, log K (all methods unless only Cp coefficients are given), first-interval Cp integration, constant volume, ideal gas, Berman and Murnaghan off the reference state, Landau off the transition, both HKF, Anderson, Holland-Powell above 500 K, G, V, Cp of Akinfiev-Diamond, and G, Cp, U, A of the gases PRSV, SRK and PR78. Refuted for constant Cp (reference temperature carries a derivative), Cp integration beyond the first interval, Berman at the reference state, log K from Cp coefficients, Holland-Powell below 500 K, S and H of Akinfiev-Diamond, V, H and S of the three gas models (H and S short by exactly the residual Cp and Cp/T), and V of the CORK and STP fluids where they are ideal gases. At the critical temperature both Peng-Robinson models return NaN. Anywhere else H and S carry their derivatives exactly if the residual H and S have derivative 0 (also with several volumes); for Peng-Robinson-Stryjek-Vera with κ₁ ≠ 0, κ₂ = 0 below the critical temperature they never both do. Missing: whether they can with κ₂ ≠ 0."
  },
  {
   "property": "C99",
   "status": "partial",
   "theorems": [
    "ThermoFun.Gas.C99_one_partial",
    "ThermoFun.Gas.C99_three_partial",
    "ThermoFun.Gas.C99_inflexion_refuted",
    "ThermoFun.Gas.C99_double_refuted",
    "ThermoFun.Gas.C99_three_refuted"
   ],
   "note": "Exact where one real root exists away from the inflexion point; three roots within 7e-8 of the scale. Refuted: root at the inflexion point (NaN), double roots (only one of two returned), three roots (pi literal)."
  },
  {
   "property": "C100",
   "status": "partial",
   "theorems": [
    "ThermoFun.Gas.C100_pr_partial",
    "ThermoFun.Gas.C100_srk_partial",
    "ThermoFun.Gas.C100_pr_three_partial",
    "ThermoFun.Gas.C100_srk_three_partial",
    "ThermoFun.Gas.C100_stable_partial",
    "ThermoFun.Gas.C100_inflexion_refuted",
    "ThermoFun.Gas.C100_liquid_pr_partial",
    "ThermoFun.Gas.C100_liquid_srk_partial"
   ],
   "note": "Equation of state solved exactly with one real root and, with three, when the least is the stable one; within the solver's error when the greatest is. Smallest fugacity among the candidates proved. Violated where the root is the inflexion point: NaN."
  },
  {
   "property": "C101",
   "status": "partial",
   "theorems": [
    "ThermoFun.Gas.C101_pr_partial",
    "ThermoFun.Gas.C101_srk_partial",
    "ThermoFun.Gas.C101_liquid_pr_partial",
    "ThermoFun.Gas.C101_liquid_srk_partial"
   ],
   "note": "Proved for both equations where the cubic has one real root, and where it has three and the least is the stable one. Stable vapour beside two other roots missing (the literal for pi moves that root)."
  },
  {
   "property": "C102",
   "status": "partial",
   "theorems": [
    "ThermoFun.Gas.C102_srk_partial",
    "ThermoFun.Gas.C102_pr78_partial",
    "ThermoFun.Gas.C102_prsv_partial",
    "ThermoFun.Gas.C102_critical_refuted",
    "ThermoFun.Gas.C102_pr78_sign_refuted",
    "ThermoFun.Gas.C102_prsv_refuted"
   ],
   "note": "Proved with one real root, T different from Tc, and k1 = 0 (PRSV) or 1+k(1-sqrt Tr) positive (PR78). Refuted: T = Tc (NaN), PRSV with k1 other than 0 below Tc, PR78 far above Tc where the sign of a square root flips."
  },
  {
   "property": "C103",
   "status": "partial",
   "theorems": [
    "ThermoFun.Gas.C103_srk_partial",
    "ThermoFun.Gas.C103_pr78_partial",
    "ThermoFun.Gas.C103_prsv_partial",
    "ThermoFun.Gas.C103_prsv_refuted",
    "ThermoFun.Gas.C103_k2_refuted"
   ],
   "note": "Proved for SRK, PR78 and PRSV with k1 = k2 = k3 = 0. Refuted for PRSV with k1 (sign error in d2a/dT2) and with k2 (ignored in da/dT)."
  },
  {
   "property": "C104",
   "status": "partial",
   "theorems": [
    "ThermoFun.Gas.C104_values_partial",
    "ThermoFun.Gas.C104_zero_partial",
    "ThermoFun.Gas.C104_gibbs_refuted",
    "ThermoFun.Gas.C104_heat_refuted",
    "ThermoFun.Gas.C104_volume_refuted"
   ],
   "note": "The values returned are proved: H and S get their residuals, V is set, G and Cp are left as they were. Refuted: G = H - TS, dH/dT = Cp (residuals not added to Cp), dG/dP = V for both options."
  },
  {
   "property": "C105",
   "status": "partial",
   "theorems": [
    "ThermoFun.Gas.C105_reads_partial",
    "ThermoFun.Gas.C105_refuted",
    "ThermoFun.C105_solutes_partial",
    "ThermoFun.C105_ad_refuted",
    "ThermoFun.BM.C105_bm_partial",
    "ThermoFun.BM.C105_bm_refuted"
   ],
   "note": "Proved: Birch-Murnaghan with fewer than eight coefficients, Holland-Powell and empty Akinfiev-Diamond lists raise an error. Refuted: one or two Akinfiev-Diamond coefficients, fewer than seven critical parameters, no temperature interval ; eight Birch-Murnaghan coefficients (undefined behaviour)."
  },
  {
   "property": "C106",
   "status": "partial",
   "theorems": [
    "ThermoFun.BM.C106_slope_partial",
    "ThermoFun.BM.C106_volume_partial",
    "ThermoFun.BM.C106_below_partial",
    "ThermoFun.BM.C106_start_partial"
   ],
   "note": "Proved where the slope of the pressure varies by a factor of two at most between the start and the solution; with the third-order equation and K' >= 4 for every start below the solution, as the start of the program is but for the reference pressure, with an error that depends on the ratio of the slopes. Missing: K' < 4 with strongly varying slope (50 steps are not always enough)."
  },
  {
   "property": "C107",
   "status": "partial",
   "theorems": [
    "ThermoFun.BM.C107_integral_partial",
    "ThermoFun.BM.C107_reference_refuted"
   ],
   "note": "Proved: the derivative and the insensitivity. Refuted: the increment is not zero at the reference pressure, since the reference pressure is multiplied by the volume at zero pressure (v(T)), taken as the volume at the reference pressure."
  },
  {
   "property": "C108",
   "status": "partial",
   "theorems": [
    "ThermoFun.BM.C108_gibbs_partial",
    "ThermoFun.BM.C108_volume_refuted",
    "ThermoFun.BM.C108_slope_refuted",
    "ThermoFun.BM.C108_entropy_refuted"
   ],
   "note": "Proved: G = H - TS, U and A. Refuted: the new volume is added to that of the record, so compression doubles it; dG/dP = V; dG/dT = -S."
  },
  {
   "property": "C109",
   "status": "proved",
   "theorems": [
    "ThermoFun.Engine.C109_sum",
    "ThermoFun.Engine.C109_answers",
    "ThermoFun.Engine.C109_vantHoff",
    "ThermoFun.Engine.C109_planck"
   ],
   "note": "Proved for every engine with the default solvent present, no gas models and no circular definitions (the conditions of C45)."
  },
  {
   "property": "C110",
   "status": "proved",
   "theorems": [
    "ThermoFun.Engine.C110_minerals"
   ],
   "note": "Proved, with the modelled heat capacity and volume models plugged into the engine; the tenth coefficient must be zero in the interval (see C29)."
  },
  {
   "property": "C111",
   "status": "partial",
   "theorems": [
    "ThermoFun.Engine.C111_reference_partial",
    "ThermoFun.Engine.C111_volume_refuted"
   ],
   "note": "Proved for no pressure method and constant volume. Refuted for the volume functions: their result, a default-constructed record, replaces everything."
  },
  {
   "property": "C112",
   "status": "proved",
   "theorems": [
    "ThermoFun.Engine.C112_record",
    "ThermoFun.Engine.C112_file"
   ],
   "note": "Proved, by composing C92, the loading of files (C52, C90) and C110. The entropies of the elements in formulas are a parameter, as the formula parser of ChemicalFun is not in the repository."
  },
  {
   "property": "C113",
   "status": "proved",
   "theorems": [
    "ThermoFun.Cork.C113_volume",
    "ThermoFun.Cork.C113_temperature",
    "ThermoFun.Cork.C113_limit"
   ],
   "note": "Proved for every fluid with positive critical temperature and pressure."
  },
  {
   "property": "C114",
   "status": "partial",
   "theorems": [
    "ThermoFun.Cork.C114_co2_partial",
    "ThermoFun.Cork.C114_steam_partial",
    "ThermoFun.Cork.C114_vapour_partial",
    "ThermoFun.Cork.C114_liquid_partial",
    "ThermoFun.Cork.C114_saturation_partial",
    "ThermoFun.Cork.C114_root_refuted"
   ],
   "note": "Proved where the cubic has a single real solution: CO2, H2O above 695 K, vapour and liquid below, equality at saturation. Refuted for the liquid at very high pressure: where two of three real roots are negative the code takes a negative one and the result is NaN. Missing: the rest of the region of three real roots."
  },
  {
   "property": "C115",
   "status": "partial",
   "theorems": [
    "ThermoFun.Cork.C115_co2_partial",
    "ThermoFun.Cork.C115_vapour_partial",
    "ThermoFun.Cork.C115_steam_refuted",
    "ThermoFun.Cork.C115_co2_refuted"
   ],
   "note": "Proved for CO2 up to 5 kbar and for H2O vapour. Refuted: H2O above 695 K (sign of da/dT), CO2 above 5 kbar (virial part left out of H and S). Missing: three real roots, the liquid."
  },
  {
   "property": "C116",
   "status": "partial",
   "theorems": [
    "ThermoFun.Cork.C116_steam_partial",
    "ThermoFun.Cork.C116_jump_refuted"
   ],
   "note": "Continuous above 695 K. Refuted at 695 K, where the code changes polynomials that meet at 673 K."
  },
  {
   "property": "C117",
   "status": "partial",
   "theorems": [
    "ThermoFun.Cork.C117_values_partial",
    "ThermoFun.Cork.C117_zero_partial",
    "ThermoFun.Cork.C117_gibbs_refuted"
   ],
   "note": "The values returned are proved, and that pressure 0 is 1 Pa. Refuted wherever phi is not 1: H and S get residuals, G does not."
  },
  {
   "property": "C118",
   "status": "partial",
   "theorems": [
    "ThermoFun.Engine.C118_named_partial",
    "ThermoFun.Engine.C118_solid_partial",
    "ThermoFun.Engine.C118_ignored_refuted"
   ],
   "note": "Proved for all modelled pressure models (constant volume, Murnaghan, Berman, Birch-Murnaghan, all gas equations of state). Refuted: three documented methods run no pressure model."
  },
  {
   "property": "C119",
   "status": "partial",
   "theorems": [
    "ThermoFun.Stp.C119_derivatives_partial",
    "ThermoFun.Stp.C119_pressure_partial",
    "ThermoFun.Stp.C119_water_refuted"
   ],
   "note": "Proved for both fluids in the whole range of the code except H2O at one temperature, where the code divides by zero (refuted)."
  },
  {
   "property": "C120",
   "status": "partial",
   "theorems": [
    "ThermoFun.Stp.C120_density_exists_partial",
    "ThermoFun.Stp.C120_residual_partial",
    "ThermoFun.Stp.C120_newton_partial",
    "ThermoFun.Stp.C120_result_partial"
   ],
   "note": "Proved at the exact density; that of the code is off by a bounded amount where the slope of the pressure varies by less than half, with an error of the second order in G. Missing: convergence elsewhere."
  },
  {
   "property": "C121",
   "status": "partial",
   "theorems": [
    "ThermoFun.Stp.C121_values_partial",
    "ThermoFun.Stp.C121_zero_partial",
    "ThermoFun.Stp.C121_gibbs_refuted",
    "ThermoFun.Stp.C121_formula_refuted",
    "ThermoFun.Stp.C121_range_refuted"
   ],
   "note": "The values returned are proved. Refuted: G is not corrected; other formulas and temperatures outside 200-2000 K read variables that are not set."
  },
  {
   "property": "C122",
   "status": "partial",
   "theorems": [
    "ThermoFun.Engine.C122_record_refuted",
    "ThermoFun.Stp.C122_array_refuted"
   ],
   "note": "Refuted for every record: twelve elements are read of an array of seven."
  },
  {
   "property": "C123",
   "status": "proved",
   "theorems": [
    "ThermoFun.Gems.C123_consistent"
   ],
   "note": "For every density that solves the equation of state of the code, with an example at 298.15 K checked by verified interval arithmetic."
  },
  {
   "property": "C124",
   "status": "partial",
   "theorems": [
    "ThermoFun.Gems.C124_partial",
    "ThermoFun.Gems.C124_refuted"
   ],
   "note": "Proved after removing an explicit error: the constant 28.16666667 in the base function of the Helmholtz energy is not (alpha+beta+1)/2 as in the pressure. Refuted at a concrete state (and at every state, G_not_volume)."
  },
  {
   "property": "C125",
   "status": "partial",
   "theorems": [
    "ThermoFun.Gems.C125_partial",
    "ThermoFun.Gems.C125_refuted"
   ],
   "note": "Proved for T <= 522 K or T >= 758 K. Refuted at 641 K and 0.33 g/cm3, where the value has the wrong sign: the 38th term divides by the reference density instead of the reduced density."
  },
  {
   "property": "C126",
   "status": "partial",
   "theorems": [
    "ThermoFun.Gems.C126_partial",
    "ThermoFun.Gems.C126_refuted"
   ],
   "note": "Z, Y and Q proved within the range of the Born functions; X for T <= 522 K or T >= 758 K. Refuted at 641 K and 0.33 g/cm3 for X, which inherits the error of dAldT (C125)."
  },
  {
   "property": "C127",
   "status": "partial",
   "theorems": [
    "ThermoFun.Gems.C127_ends",
    "ThermoFun.Gems.C127_partial",
    "ThermoFun.Gems.C127_refuted"
   ],
   "note": "Proved for searches that succeed, and that the loop ends. Refuted: at 298.15 K and 10 MPa from the guess 0 (the vapour guess of calcv2) the search ends, unreported, at a density with a pressure below -90 MPa. The kernel follows the 11 rounds on intervals."
  },
  {
   "property": "C128",
   "status": "partial",
   "theorems": [
    "ThermoFun.Gems.C128_partial"
   ],
   "note": "Proved when the two inner searches of the last round succeed and the vapour is not thinner than 5e-7 g/cm3; termination is not proved. Example at 298.15 K followed by the kernel on intervals."
  },
  {
   "property": "C129",
   "status": "partial",
   "theorems": [
    "ThermoFun.Gems.C129_partial",
    "ThermoFun.Gems.C129_refuted"
   ],
   "note": "Proved for the liquid (state 0) of compressed water below 369.85 C when the search succeeds, including second derivative of the density (outside 522-758 K), speed of sound and Cp-Cv. Refuted for state 1 at 25 C and 100 bar: density 54 kg/m3 and negative compressibility, computed from the liquid density and vapour functions."
  },
  {
   "property": "C130",
   "status": "partial",
   "theorems": [
    "ThermoFun.Gems.C130_partial",
    "ThermoFun.Gems.C130_refuted"
   ],
   "note": "Proved that epsilonT, epsilonTT (away from the temperatures of C125) and epsilon^2 bornQ are derivatives; epsilonP is the derivative per bar, so refuted per pascal (factor 100000)."
  },
  {
   "property": "C131",
   "status": "partial",
   "theorems": [
    "ThermoFun.Gems.C131_partial",
    "ThermoFun.Gems.C131_refuted"
   ],
   "note": "Proved with the factor 4.305816*4.184/18.015268, which is 1 to 2e-5; refuted with the factor 1 at 298.15 K."
  },
  {
   "property": "C132",
   "status": "partial",
   "theorems": [
    "ThermoFun.Gems.C132_partial",
    "ThermoFun.Gems.C132_refuted"
   ],
   "note": "Proved for both phases below 369.85 C when pcorr ends; the pressure handed out is that of the liquid density. Refuted: the pressure handed back is that of the fit PsHGK, above the one handed out (25 C)."
  },
  {
   "property": "C133",
   "status": "partial",
   "theorems": [
    "ThermoFun.Gems.C133_partial",
    "ThermoFun.Gems.C133_refuted"
   ],
   "note": "The inner loop counter is not reset, so only the terms without 1/T - 1 are summed. Proved: the exact factor by which the value is off, and agreement at the critical temperature. Refuted at 25 C: the formula gives more than 16 times the viscosity."
  },
  {
   "property": "C134",
   "status": "partial",
   "theorems": [
    "ThermoFun.Gems.C134_partial",
    "ThermoFun.Gems.C134_refuted"
   ],
   "note": "Same loop error as C133. Proved: what is computed, and agreement at the critical temperature. Refuted at the density maximum of water: 15 percent too small."
  },
  {
   "property": "C135",
   "status": "proved",
   "theorems": [
    "ThermoFun.C135_curves"
   ],
   "note": ""
  },
  {
   "property": "C136",
   "status": "partial",
   "theorems": [
    "ThermoFun.C136_partial",
    "ThermoFun.C136_refuted"
   ],
   "note": "Proved below and above the critical temperature for requested states -1, 0, 1, 2. Refuted at 647.096 K (start at the critical density, where delta - 1 = 0 is divided by) and for a requested state 3 (start 0)."
  },
  {
   "property": "C137",
   "status": "partial",
   "theorems": [
    "ThermoFun.Engine.C137_aqueous_partial",
    "ThermoFun.Engine.C137_refuted"
   ],
   "note": "All laws at constant pressure proved through the whole engine; dG/dP = sum of nu kappa V with kappa = 4.184/4.184004 for solutes (two calorie constants in the code). Refuted for solutes with V not 0."
  },
  {
   "property": "C138",
   "status": "partial",
   "theorems": [
    "ThermoFun.Engine.C138_wp95_partial"
   ],
   "note": "Proved for the density that solves the equation of state; missing: the search of the program ends before the root (C78). Example: liquid water at 298.15 K and 1 bar, density located to nine decimals by verified interval arithmetic; the check values printed with IAPWS-95 at 500 K are reproduced to the last digit."
  },
  {
   "property": "C139",
   "status": "proved",
   "theorems": [
    "ThermoFun.C139_carried"
   ],
   "note": "Proved for every equation of state given as a smooth Helmholtz function; example: liquid water at 298.15 K and 1 bar, three tests, evaluated with 130 digits."
  },
  {
   "property": "C140",
   "status": "proved",
   "theorems": [
    "ThermoFun.C140_defects",
    "ThermoFun.C140_search"
   ],
   "note": "Exact identities. At 298.15 K and 1 bar the pressure missing is 2.3e-23 Pa."
  },
  {
   "property": "C141",
   "status": "partial",
   "theorems": [
    "ThermoFun.Gems.Crit.C141_refuted",
    "ThermoFun.Gems.Crit.C141_partial"
   ],
   "note": "Proved above the critical temperature and pressure; missing: that the density found belongs to the pressure (20 rounds at most), pressures up to the critical one. Refuted on the whole part of the region between 646.5 K and the critical temperature above the critical pressure: density 0 for the liquid, energies 0 for the other phase."
  },
  {
   "property": "C142",
   "status": "partial",
   "theorems": [
    "ThermoFun.Gems.Crit.C142_refuted",
    "ThermoFun.Gems.Crit.C142_partial"
   ],
   "note": "Proved from 643 K to 0.0001 K below the critical temperature (16 steps suffice). Refuted at the critical temperature (within 1e-7 K): the loop of LVSeqn never ends, its flag is set and never cleared."
  },
  {
   "property": "C143",
   "status": "partial",
   "theorems": [
    "ThermoFun.Gems.Crit.C143_partial",
    "ThermoFun.Gems.Crit.C143_refuted"
   ],
   "note": "Equal Gibbs energies proved exactly; Clausius-Clapeyron to 18 ppm and 1e-5 J/(mol K) with the derivative of the saturation pressure at the temperature asked for. Refuted exactly (643 K to 645 K): entropies per 18.015534 g, volumes per 18.015268 g."
  },
  {
   "property": "C144",
   "status": "partial",
   "theorems": [
    "ThermoFun.Batch.C144_partial",
    "ThermoFun.Batch.C144_stale_refuted",
    "ThermoFun.Batch.C144_documented_refuted",
    "ThermoFun.Batch.C144_vector_refuted"
   ],
   "note": "Proved for a request followed by writing its file, after anything, pressures other than 0. Refuted: units set between request and writing change the heading but not the temperature written; vectors and single numbers ignore the units; the class comment asks for degrees Celsius and bar, a new object takes kelvin and pascal."
  },
  {
   "property": "C145",
   "status": "partial",
   "theorems": [
    "ThermoFun.Batch.C145_partial",
    "ThermoFun.Batch.C145_refuted",
    "ThermoFun.Batch.C145_again_refuted"
   ],
   "note": "Proved for every program while no writing of that output has raised. Refuted: after one that raised, the next returns and writes nothing (the stream is still open)."
  },
  {
   "property": "C146",
   "status": "partial",
   "theorems": [
    "ThermoFun.Csv.C146_partial",
    "ThermoFun.Csv.C146_electro_refuted",
    "ThermoFun.Csv.C146_early_refuted",
    "ThermoFun.Csv.C146_reopen_refuted",
    "ThermoFun.Csv.C146_comma_refuted",
    "ThermoFun.Csv.C146_folder",
    "ThermoFun.Csv.C146_folder_refuted"
   ],
   "note": "Proved for the files of substances and of the solvent, programs that open only what is closed and write only to what is open, symbols without comma. Refuted: electric properties (bornX written twice, 16 cells under 15 headings), writing before opening (no headings), opening again without closing (rows lost), commas in symbols, folder of a program called without a path."
  },
  {
   "property": "C147",
   "status": "partial",
   "theorems": [
    "ThermoFun.Templates.C147_partial",
    "ThermoFun.Templates.C147_unread_refuted",
    "ThermoFun.Templates.C147_missing_refuted",
    "ThermoFun.Templates.C147_properties"
   ],
   "note": "Proved: lists complete, every line JSON, values filled in are read for all methods of reactions and all but eight of substances. Refuted: eight methods whose key the parser does not know; three equations of state of gases offered without the critical parameters they read (undefined behaviour)."
  },
  {
   "property": "C148",
   "status": "partial",
   "theorems": [
    "ThermoFun.Scopes.C148_partial",
    "ThermoFun.Scopes.C148_refuted"
   ],
   "note": "Proved exactly: sequences without a temperature and pressure asked for in two requests are answered with the values of the calculation; all others have undefined behaviour (refuted for every calculation). Caches with fewer than 1000000 entries."
  },
  {
   "property": "C149",
   "status": "partial",
   "theorems": [
    "ThermoFun.Units.C149_partial",
    "ThermoFun.Units.C149_refuted",
    "ThermoFun.Units.C149_tesla_refuted",
    "ThermoFun.Units.C149_acre_refuted"
   ],
   "note": "Proved for 232 of the 243 names against an independently written table. Violated for the tesla, its spellings and the gauss (defined as Wb*m2) and for bar^2 to bar^5 (defined as powers of K), whose conversion to their own SI expression is refused; an acre is not 43560 of the table's square feet. The three fractional powers are not covered here (C15, C18)."
  },
  {
   "property": "C150",
   "status": "partial",
   "theorems": [
    "ThermoFun.Double.C150_points",
    "ThermoFun.Double.C150_partial",
    "ThermoFun.Double.C150_refuted",
    "ThermoFun.Double.C150_divergence_refuted",
    "ThermoFun.Double.C150_ascending"
   ],
   "note": "Proved exactly for whole multiples of a power of two (up to 2^53 of them); for all other numbers n + 1 or n + 2 points with an explicit error bound. Refuted: from 0 to 1 in steps of 0.1 gives twelve points, the last 1.1; from 2^53 in steps of 1 the loop never ends."
  },
  {
   "property": "C151",
   "status": "partial",
   "theorems": [
    "ThermoFun.Double.C151_partial",
    "ThermoFun.Double.C151_refuted",
    "ThermoFun.Double.C151_report_refuted",
    "ThermoFun.Double.C151_bound"
   ],
   "note": "Proved for pressures with few binary digits (whole bars, halves, ...); a bound of six parts in 2^53 per preceding symbol for all pressures. Refuted at 16.9 MPa (second symbol computed at another pressure) and 10.7 bar (another pressure reported)."
  },
  {
   "property": "C152",
   "status": "partial",
   "theorems": [
    "ThermoFun.Double.C152_partial",
    "ThermoFun.Double.C152_temperature_refuted",
    "ThermoFun.Double.C152_small_refuted",
    "ThermoFun.Double.C152_order",
    "ThermoFun.Double.C152_cell"
   ],
   "note": "Proved: decimal number with the digits set, off by half a unit of the last digit at most, order kept, one cell. Refuted: 298.15 K stands as 298.1 by default; every volume below 0.0005 is written 0.000."
  },
  {
   "property": "C153",
   "status": "partial",
   "theorems": [
    "ThermoFun.Sat.C153_partial",
    "ThermoFun.Sat.C153_saturation_partial",
    "ThermoFun.Sat.C153_refuted"
   ],
   "note": "Proved for every pressure other than 0, all queries, without Akinfiev-Diamond records and as far as the gems water code leaves the pressure alone; at pressure 0 for orders that evaluate the solvent first. Refuted at pressure 0: left to right and right to left give different G for a solute."
  },
  {
   "property": "C154",
   "status": "partial",
   "theorems": [
    "ThermoFun.Sat.C154_partial",
    "ThermoFun.Sat.C154_refuted",
    "ThermoFun.Sat.C154_reaction_refuted"
   ],
   "note": "Proved for water (Wagner-Pruss, HGK of reaktoro), for solutes whose pressure is read after the solvent, and for reactions led by such species. Refuted for a solute with arguments from left to right, and for every order for a reaction in which a mineral comes before water in the map. Missing: gems water code, Akinfiev-Diamond."
  },
  {
   "property": "C155",
   "status": "partial",
   "theorems": [
    "ThermoFun.Engine.C155_cork_refuted",
    "ThermoFun.Engine.C155_stp_refuted",
    "ThermoFun.Engine.C155_real_gas_any_refuted",
    "ThermoFun.Engine.C155_critical_refuted",
    "ThermoFun.Engine.C155_real_gas_partial",
    "ThermoFun.Engine.C155_real_gas_refuted",
    "ThermoFun.Engine.C155_solids_partial",
    "ThermoFun.Engine.C155_birch_partial",
    "ThermoFun.Engine.C155_birch_refuted",
    "ThermoFun.Engine.C155_ideal_gas_partial",
    "ThermoFun.Engine.C155_ideal_gas_refuted",
    "ThermoFun.Engine.C155_interval_refuted",
    "ThermoFun.Engine.C155_landau_partial",
    "ThermoFun.Engine.C155_landau_refuted",
    "ThermoFun.C155_solutes_partial",
    "ThermoFun.C155_hp98_refuted"
   ],
   "note": "Proved through the engine for solids of constant volume, Berman's and Murnaghan's, whose reference temperature is in the first interval, also with a Landau transition without transition volume; for G, H and S of ideal gases; for Anderson's solutes; for S, V, Cp of Holland and Powell's and G, H, S of Akinfiev and Diamond's. Refuted: reference temperature in a later interval, volume of Birch-Murnaghan solids, Landau transitions with a transition volume, G and H of Holland and Powell's solutes, the volume of ideal gases (R T / P, not the recorded one). Real gases keep the recorded G but get residual H and S: H − T S is off by R T ln φ in every state with a root above the covolume, above or below the critical temperature, so the recorded H and S are lost wherever the fugacity coefficient φ is not 1 (that it is not, is proved for gases above the critical temperature at low reference pressure and for a liquid). The same for CORK and Sterner-Pitzer fluids. HKF solutes are the subject of C73. Records whose reference temperature is the critical one get NaN from both Peng-Robinson models. Missing: records for which the cubic solver itself fails (C99)."
  },
  {
   "property": "C156",
   "status": "partial",
   "theorems": [
    "ThermoFun.Engine.C156_partial",
    "ThermoFun.Engine.C156_order_partial",
    "ThermoFun.Engine.C156_refuted",
    "ThermoFun.Js.C156_files"
   ],
   "note": "Proved for every query of the engine and every addition when the solvent of the preferences is in the database, and for the order of records in files. Refuted without that solvent: the engine takes the last solvent of the database. Missing: exceptions (only answers are compared), and reactions asked for by an equation that is the symbol of an added record."
  },
  {
   "property": "C157",
   "status": "partial",
   "theorems": [
    "ThermoFun.Engine.C157_partial",
    "ThermoFun.Engine.C157_multiple",
    "ThermoFun.Engine.C157_refuted",
    "ThermoFun.Engine.C157_energy_partial",
    "ThermoFun.Engine.C157_energy_refuted"
   ],
   "note": "Proved from the text of the equation to G, H, S, Cp, V and ln K, with spelling, reverse and multiples, after any history. Refuted for species that occur twice, names that look like exponents, and U, A and Cv: these are the contribution of one species and right only if those of the others cancel. Missing: gases."
  },
  {
   "property": "C158",
   "status": "partial",
   "theorems": [
    "ThermoFun.C158_reaktoro_partial",
    "ThermoFun.C158_gems_partial",
    "ThermoFun.C158_refuted"
   ],
   "note": "Proved for both implementations with continuous solvent data, also across the lines where the g function changes. Refuted with the gems dielectric code: it returns zero Born functions above 5000.001 bar, and G jumps there. Missing: points where the program divides by zero (1000 kg/m3, zero expansivity); gems above 1000 kg/m3."
  },
  {
   "property": "C159",
   "status": "partial",
   "theorems": [
    "ThermoFun.Gems.C159_gems_partial",
    "ThermoFun.Gems.C159_gems_refuted",
    "ThermoFun.Gems.C159_permittivity_refuted",
    "ThermoFun.C159_partial",
    "ThermoFun.C159_refuses",
    "ThermoFun.C159_volume_refuted",
    "ThermoFun.C159_range_refuted"
   ],
   "note": "Zhang-Duan: refusal above the range and in pressure, and the error of the volume, proved; refuted: negative volume at 300 K and 2.156 GPa, lower limit of temperature ignored. gems: refusal outside the range and none within proved from the triple point pressure on; refuted: lower pressures are replaced by the saturation pressure, permittivity zero above 5000 bar. Missing: that the searches succeed."
  },
  {
   "property": "C160",
   "status": "partial",
   "theorems": [
    "ThermoFun.Sat.C160_partial",
    "ThermoFun.Sat.C160_history_partial",
    "ThermoFun.Sat.C160_sequence_partial",
    "ThermoFun.Sat.C160_error_refuted",
    "ThermoFun.Sat.C160_low_refuted"
   ],
   "note": "Agreement with the engine that takes the pressure by value (Model/Engine.lean), and the pressure kept, proved for all queries that answer, and for errors if no record uses WaterHGK; with caches and after other queries; for sequences that share a variable. Refuted: after an error WaterHGK leaves the pressure in bar; a pressure below 611.732 Pa is replaced by that of saturation."
  },
  {
   "property": "C161",
   "status": "partial",
   "theorems": [
    "ThermoFun.Py.C161_partial",
    "ThermoFun.Py.C161_meant_partial",
    "ThermoFun.Py.C161_queries_partial",
    "ThermoFun.Py.C161_order_partial",
    "ThermoFun.Py.C161_unusable_refuted",
    "ThermoFun.Py.C161_empty_refuted",
    "ThermoFun.Py.C161_loggers_refuted",
    "ThermoFun.Py.C161_alive_partial",
    "ThermoFun.Py.C161_dangling_refuted",
    "ThermoFun.Py.C161_numbers_partial"
   ],
   "note": "Proved for all exports but nineteen that some call succeeds, and that no call of the nineteen does; that a call without empty lists reaches the function it fits, in any order of definition; that an integer prefers an argument of type int to a double, in any order; that objects handed out stay valid unless taken with element, substance or reaction. Refuted: methods, classes and states of records cannot be set or read (enumerations not registered); empty lists are ambiguous; the loggers have no default arguments; references outlive their database. Arguments by position only; rules of pybind11 as documented."
  },
  {
   "property": "C162",
   "status": "partial",
   "theorems": [
    "ThermoFun.Engine.C162_partial",
    "ThermoFun.Engine.C162_energy_refuted",
    "ThermoFun.Engine.C162_gas_refuted"
   ],
   "note": "Proved for G, H, S, Cp, V, ln K and log K over any cycle of reactions asked for as records, by symbol or by equation, after any history. Refuted for U (overwritten by the last species, C43). Refuted for G with gases: a species defined by a reaction switches the pressure correction off for the gas after it (C84), so the cycle of such a species, a gas and a mineral does not close at any pressure other than 1 bar. Missing: cycles with gases but without such species; reactions with methods of their own."
  },
  {
   "property": "C163",
   "status": "partial",
   "theorems": [
    "ThermoFun.Js.C163_partial",
    "ThermoFun.Js.C163_copy_partial",
    "ThermoFun.Js.C163_edited_refuted",
    "ThermoFun.Js.C163_created_refuted",
    "ThermoFun.Js.C163_valence_refuted",
    "ThermoFun.Js.C163_label_refuted"
   ],
   "note": "Proved for databases filled by reading: every text describes its record, the copy by texts is the same, and a setter breaks this unless it sets what is there. Refuted for edited records, records made in code (their empty text ends the reading silently), elements set from text (valence), texts with _label inside. The element table and conventions are in no text. Writing JSON and parsing it is taken as identity."
  },
  {
   "property": "C164",
   "status": "partial",
   "theorems": [
    "ThermoFun.Js.C164_partial",
    "ThermoFun.Js.C164_warning_refuted",
    "ThermoFun.Js.C164_fraction_refuted",
    "ThermoFun.Js.C164_halfway_refuted"
   ],
   "note": "Proved for formulas that parse to integer charges. Refuted: warnings name the new charge twice, fractional charges are cut off and warned of forever, a formula that fails leaves half of the substances changed. The formula parser (ChemicalFun) is a parameter."
  },
  {
   "property": "C165",
   "status": "partial",
   "theorems": [
    "ThermoFun.Gas.C165_pr_partial",
    "ThermoFun.Gas.C165_srk_partial",
    "ThermoFun.Gas.C165_low_pr_partial",
    "ThermoFun.Gas.C165_low_srk_partial",
    "ThermoFun.Gas.C165_entry_partial",
    "ThermoFun.Gas.C165_dense_refuted",
    "ThermoFun.Gas.C165_residual_srk_partial",
    "ThermoFun.Gas.C165_residual_pr_partial",
    "ThermoFun.Gas.C165_residual_entry_partial"
   ],
   "note": "Proved: for one real root and A + B up to 1/20 the volume and ln φ deviate by at most 2(A+B) and 6(A+B); for A + B up to 1e-7 with any number of roots and a ≤ 18 bRT, up to the error of the literal for π; the switch at 1e-5 bar stays within the bound. The residual G, H, S and Cp are at most K P below some pressure where the cubic has one real root, which is so for 1.2 bRT ≤ a ≤ 5.8 bRT. Missing: three real roots for larger A + B, and the residual properties with three real roots. Refuted: at 1e5 bar and above, and below the lower temperature at any pressure, the gas is ideal again, with volumes below the covolume."
  },
  {
   "property": "C166",
   "status": "partial",
   "theorems": [
    "ThermoFun.BM.C166_birch_partial",
    "ThermoFun.Cork.C166_cork_partial",
    "ThermoFun.Cork.C166_hydrogen_refuted",
    "ThermoFun.Cork.C166_methane_refuted",
    "ThermoFun.Cork.C166_co2_partial",
    "ThermoFun.Cork.C166_steam_partial",
    "ThermoFun.Cork.C166_steam_refuted",
    "ThermoFun.Gas.C166_pr_partial",
    "ThermoFun.Gas.C166_srk_partial",
    "ThermoFun.Gas.C166_choice_pr_partial",
    "ThermoFun.Gas.C166_choice_srk_partial",
    "ThermoFun.C166_murnaghan_partial",
    "ThermoFun.C166_hot_refuted",
    "ThermoFun.C166_berman_refuted"
   ],
   "note": "Proved: Peng-Robinson and SRK with one real root; the choice among three exact roots never takes the middle one (the roots the code computes carry the error of its literal for π); Murnaghan while the bulk modulus is positive. Exact Birch-Murnaghan volumes with the third-order equation and K' ≥ 4. CORK: CO2 with one real root up to 1195 K, H2O above 695 K up to 2 kbar, other gases between 8.27 and 14.3 critical temperatures. Missing: other Birch-Murnaghan solids, the STP equation. Refuted: above 6965 K the Murnaghan bulk modulus is negative and minerals grow under pressure; the Berman volume passes a minimum (120 kbar for quartz) and grows beyond; CORK: hydrogen has a negative volume at 1000 K and 40 kbar, methane grows between 40 and 60 kbar at 300 K, and H2O grows just above 2 kbar at every temperature above 695 K."
  },
  {
   "property": "C167",
   "status": "partial",
   "theorems": [
    "ThermoFun.Engine.C167_quadrature_partial",
    "ThermoFun.Engine.C167_defined_partial",
    "ThermoFun.Engine.C167_zero_refuted",
    "ThermoFun.Engine.C167_equilibrium_refuted",
    "ThermoFun.Engine.C167_closing_refuted"
   ],
   "note": "Proved for every property whose species have no value of exactly 0 with an uncertainty, ln K and log K for G other than 0, and for substances defined by a reaction. Refuted: a species with 0 ± σ contributes nothing; ΔG = 0 ± σ gives ln K without uncertainty; the reaction that defines a substance, computed back from its species, has a larger uncertainty than its record."
  },
  {
   "property": "C168",
   "status": "partial",
   "theorems": [
    "ThermoFun.Errors.C168_read_partial",
    "ThermoFun.Errors.C168_distinct_partial",
    "ThermoFun.Errors.C168_frame_partial",
    "ThermoFun.Errors.C168_tail_partial",
    "ThermoFun.Errors.C168_documented_refuted",
    "ThermoFun.Errors.C168_path_refuted",
    "ThermoFun.Errors.C168_lines_refuted",
    "ThermoFun.Errors.C168_forged_refuted",
    "ThermoFun.Errors.C168_file_refuted",
    "ThermoFun.Errors.C168_range_refuted",
    "ThermoFun.Errors.C168_range_partial",
    "ThermoFun.Errors.C168_log_partial",
    "ThermoFun.Errors.C168_log_refuted",
    "ThermoFun.Errors.C168_update_partial",
    "ThermoFun.Errors.C168_last_partial",
    "ThermoFun.Errors.C168_clear_partial",
    "ThermoFun.Errors.C168_both_refuted",
    "ThermoFun.Errors.C168_unregistered_partial",
    "ThermoFun.Errors.C168_unopened_refuted"
   ],
   "note": "Proved: errors with paths up to 45 characters and one-line texts can be read back whole and are distinct, the frame covers the text, longer paths keep their last 45 characters; the loggers do exactly what was asked, the last call wins. Refuted: long paths, line breaks, the documented location, missing records (no file), Zhang-Duan out of range (line never set), the place in the log, console and file at once, a file that cannot be opened. Missing: the texts of numbers inside reasons."
  },
  {
   "property": "C169",
   "status": "partial",
   "theorems": [
    "ThermoFun.Engine.C169_transition_partial",
    "ThermoFun.Engine.C169_transition_refuted",
    "ThermoFun.Engine.C169_reference_refuted",
    "ThermoFun.Engine.C169_reference_temperature_refuted"
   ],
   "note": "Proved through the engine: dG/dT = -S and G = H - T S with any transition, and dG/dP = V and dH/dT = Cp for transitions without volume. Refuted: dG/dP = V with a transition volume, and dG/dT and dG/dP at the reference point of every such record, where G jumps and has no slope."
  },
  {
   "property": "C170",
   "status": "partial",
   "theorems": [
    "ThermoFun.Js.C170_setters",
    "ThermoFun.Js.C170_equation_partial",
    "ThermoFun.Js.C170_equation_refuted",
    "ThermoFun.Js.C170_setEquation_refuted"
   ],
   "note": "Setters and getters: proved for every sequence of setters. The equation: proved for a reaction whose former reactants all occur in the new equation, new reactions among them. Refuted: fromEquation keeps every former species the new equation leaves out; setEquation and setReactants do not change each other."
  },
  {
   "property": "C171",
   "status": "partial",
   "theorems": [
    "ThermoFun.Gas.C171_above_partial",
    "ThermoFun.Gas.C171_below_partial",
    "ThermoFun.Gas.C171_program_partial",
    "ThermoFun.Gas.C171_consistent_partial",
    "ThermoFun.Gas.C171_heavy_refuted",
    "ThermoFun.Gas.C171_inflexion_refuted"
   ],
   "note": "Above 1.0001 Tc one volume at every pressure, below 0.99 Tc three volumes at some pressure, and the program returns the one volume above Tc where the attraction is at least 1.2 b R T + 2 b² P and the root is not the inflexion point. Missing: the temperatures between, acentric factors outside −0.22 to 0.34; violated for an acentric factor of 1 at 8000 K and, with NaN, at the pressure whose root is the inflexion point."
  },
  {
   "property": "C172",
   "status": "partial",
   "theorems": [
    "ThermoFun.Gas.C172_cork_limit_refuted",
    "ThermoFun.Gas.C172_stp_limit_refuted",
    "ThermoFun.Gas.C172_heat_limit_refuted",
    "ThermoFun.Gas.C172_prsv_refuted",
    "ThermoFun.Gas.C172_critical_partial",
    "ThermoFun.Gas.C172_nan_refuted",
    "ThermoFun.Gas.C172_partial",
    "ThermoFun.Gas.C172_limit_refuted"
   ],
   "note": "Proved away from the critical temperature for all records. Refuted: PRSV with k1 ≠ 0 has a jump of H and S at the critical temperature for every record and pressure with a single volume, and both Peng-Robinson models return NaN at the critical temperature itself; at the lower temperature limit of a record all three models jump from the ideal to the real volume, for every record. H and S jump there too, wherever the fugacity coefficient is not 1, also with several volumes and for CORK and Sterner-Pitzer fluids. Missing: pressures at which the equation has several volumes, where phases change."
  }
 ]
}