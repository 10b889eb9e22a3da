# Axioms each theorem depends on

Output of `#print axioms` for every property theorem (written by `tools/gen_manifest.py --axioms`).

| theorem | axioms |
|---|---|
| `ThermoFun.Engine.C137_aqueous_partial` | propext, Classical.choice, Quot.sound |
| `ThermoFun.Engine.C137_refuted` | propext, Classical.choice, Quot.sound |
| `ThermoFun.Engine.C138_wp95_partial` | propext, Classical.choice, Quot.sound |
| `ThermoFun.Batch.C55_storage` | propext, Quot.sound |
| `ThermoFun.Batch.C55_csv_rows` | propext, Quot.sound |
| `ThermoFun.Batch.C55_csv_transposed` | propext, Quot.sound |
| `ThermoFun.Batch.C56_range_points` | propext, Classical.choice, Quot.sound |
| `ThermoFun.Batch.C56_range_exact` | propext, Classical.choice, Quot.sound |
| `ThermoFun.Batch.C56_overshoot_refuted` | propext, Classical.choice, Quot.sound |
| `ThermoFun.Batch.C56_divergence_refuted` | propext, Classical.choice, Quot.sound |
| `ThermoFun.Batch.C56_grid` | propext, Quot.sound |
| `ThermoFun.Batch.C57_independence_refuted` | propext |
| `ThermoFun.Batch.C57_independence_partial` | propext, Quot.sound |
| `ThermoFun.Batch.C58_alignment_refuted` | propext, Classical.choice, Quot.sound |
| `ThermoFun.Batch.C58_alignment_partial` | propext, Quot.sound |
| `ThermoFun.Batch.C59_grid_partial` | propext, Classical.choice, Quot.sound |
| `ThermoFun.Batch.C59_mislabel_refuted` | propext |
| `ThermoFun.Batch.C59_out_of_range_refuted` | propext |
| `ThermoFun.Batch.C60_replace_spec` | propext, Quot.sound |
| `ThermoFun.Batch.C60_no_separator` | propext, Quot.sound |
| `ThermoFun.Batch.C60_underscore_refuted` | propext, Classical.choice, Quot.sound |
| `ThermoFun.Batch.C60_empty_divergence_refuted` | propext, Quot.sound |
| `ThermoFun.Batch.C61_output_refuted` | propext |
| `ThermoFun.Batch.C61_output_partial` | propext, Quot.sound |
| `ThermoFun.C67_copy_refuted` | propext |
| `ThermoFun.C67_copy_dangling_refuted` | none |
| `ThermoFun.C67_own_data_partial` | propext, Quot.sound |
| `ThermoFun.Batch.C144_partial` | propext, Classical.choice, Quot.sound |
| `ThermoFun.Batch.C144_stale_refuted` | propext, Classical.choice, Quot.sound |
| `ThermoFun.Batch.C144_documented_refuted` | propext, Classical.choice, Quot.sound |
| `ThermoFun.Batch.C144_vector_refuted` | propext, Classical.choice, Quot.sound |
| `ThermoFun.Batch.C145_partial` | propext, Classical.choice, Quot.sound |
| `ThermoFun.Batch.C145_refuted` | propext, Classical.choice, Quot.sound |
| `ThermoFun.Batch.C145_again_refuted` | propext, Classical.choice, Quot.sound |
| `ThermoFun.BM.C108_gibbs_partial` | propext, Classical.choice, Quot.sound |
| `ThermoFun.BM.C108_volume_refuted` | propext, Classical.choice, Quot.sound |
| `ThermoFun.BM.C108_slope_refuted` | propext, Classical.choice, Quot.sound |
| `ThermoFun.BM.C108_entropy_refuted` | propext, Classical.choice, Quot.sound |
| `ThermoFun.BM.C106_slope_partial` | propext, Classical.choice, Quot.sound |
| `ThermoFun.BM.C106_volume_partial` | propext, Classical.choice, Quot.sound |
| `ThermoFun.BM.C107_integral_partial` | propext, Classical.choice, Quot.sound |
| `ThermoFun.BM.C107_reference_refuted` | propext, Classical.choice, Quot.sound |
| `ThermoFun.BM.C106_below_partial` | propext, Classical.choice, Quot.sound |
| `ThermoFun.BM.C106_start_partial` | propext, Classical.choice, Quot.sound |
| `ThermoFun.BM.C166_birch_partial` | propext, Classical.choice, Quot.sound |
| `ThermoFun.C38_reaktoro` | propext, Classical.choice, Quot.sound |
| `ThermoFun.C38_gems_partial` | propext, Classical.choice, Quot.sound |
| `ThermoFun.C38_gems_refuted` | propext, Classical.choice, Quot.sound |
| `ThermoFun.Bounds.C64_substances_partial` | propext, Classical.choice, Quot.sound |
| `ThermoFun.Bounds.C64_records_refuted` | propext, Classical.choice, Quot.sound |
| `ThermoFun.Bounds.C64_hkf_units_refuted` | propext, Classical.choice, Quot.sound |
| `ThermoFun.Bounds.C64_reactions_partial` | propext, Classical.choice, Quot.sound |
| `ThermoFun.Bounds.C64_reactions_refuted` | propext, Classical.choice, Quot.sound |
| `ThermoFun.Engine.C157_partial` | propext, Classical.choice, Quot.sound |
| `ThermoFun.Engine.C157_multiple` | propext, Classical.choice, Quot.sound |
| `ThermoFun.Engine.C157_refuted` | propext, Classical.choice, Quot.sound |
| `ThermoFun.Engine.C157_energy_partial` | propext, Classical.choice, Quot.sound |
| `ThermoFun.Engine.C157_energy_refuted` | propext, Classical.choice, Quot.sound |
| `ThermoFun.Sat.C160_partial` | propext, Classical.choice, Quot.sound |
| `ThermoFun.Sat.C160_history_partial` | propext, Classical.choice, Quot.sound |
| `ThermoFun.Sat.C160_sequence_partial` | propext, Classical.choice, Quot.sound |
| `ThermoFun.Sat.C160_error_refuted` | propext, Classical.choice, Quot.sound |
| `ThermoFun.Sat.C160_low_refuted` | propext, Classical.choice, Quot.sound |
| `ThermoFun.C98_density` | propext, Classical.choice, Quot.sound |
| `ThermoFun.C98_dm10` | propext, Classical.choice, Quot.sound |
| `ThermoFun.C98_logK_partial` | propext, Classical.choice, Quot.sound |
| `ThermoFun.C98_logK_refuted` | propext, Classical.choice, Quot.sound |
| `ThermoFun.C98_hp98_partial` | propext, Classical.choice, Quot.sound |
| `ThermoFun.C98_hp98_refuted` | propext, Classical.choice, Quot.sound |
| `ThermoFun.C98_ad_partial` | propext, Classical.choice, Quot.sound |
| `ThermoFun.C98_ad_refuted` | propext, Classical.choice, Quot.sound |
| `ThermoFun.C98_fluids_refuted` | propext, Classical.choice, Quot.sound |
| `ThermoFun.Gas.C98_gas_refuted` | propext, Classical.choice, Quot.sound |
| `ThermoFun.Gas.C98_gas_heat_refuted` | propext, Classical.choice, Quot.sound |
| `ThermoFun.Gas.C98_gas_partial` | propext, Classical.choice, Quot.sound |
| `ThermoFun.Gas.C98_gas_entropy_partial` | propext, Classical.choice, Quot.sound |
| `ThermoFun.Gas.C98_prsv_k1_refuted` | propext, Classical.choice, Quot.sound |
| `ThermoFun.Gas.C98_gas_entropy_refuted` | propext, Classical.choice, Quot.sound |
| `ThermoFun.Gas.C98_srk_entropy_refuted` | propext, Classical.choice, Quot.sound |
| `ThermoFun.Gas.C98_pr78_entropy_refuted` | propext, Classical.choice, Quot.sound |
| `ThermoFun.Gas.C98_prsv_entropy_refuted` | propext, Classical.choice, Quot.sound |
| `ThermoFun.C98_landau_partial` | propext, Classical.choice, Quot.sound |
| `ThermoFun.C98_entropyCp_partial` | propext, Classical.choice, Quot.sound |
| `ThermoFun.C98_entropyCp_refuted` | propext, Classical.choice, Quot.sound |
| `ThermoFun.C98_empCp_partial` | propext, Classical.choice, Quot.sound |
| `ThermoFun.C98_empCp_refuted` | propext, Classical.choice, Quot.sound |
| `ThermoFun.C98_conMolVol` | propext, Classical.choice, Quot.sound |
| `ThermoFun.C98_idealGas` | propext, Classical.choice, Quot.sound |
| `ThermoFun.C98_berman_partial` | propext, Classical.choice, Quot.sound |
| `ThermoFun.C98_berman_refuted` | propext, Classical.choice, Quot.sound |
| `ThermoFun.C98_murnaghan_partial` | propext, Classical.choice, Quot.sound |
| `ThermoFun.C98_hkfReaktoro` | propext, Classical.choice, Quot.sound |
| `ThermoFun.C98_hkfGems` | propext, Classical.choice, Quot.sound |
| `ThermoFun.C98_an91` | propext, Classical.choice, Quot.sound |
| `ThermoFun.Copies.C51_values` | propext, Quot.sound |
| `ThermoFun.Copies.C51_copies` | propext, Quot.sound |
| `ThermoFun.Cork.C114_co2_partial` | propext, Classical.choice, Quot.sound |
| `ThermoFun.Cork.C114_steam_partial` | propext, Classical.choice, Quot.sound |
| `ThermoFun.Cork.C114_vapour_partial` | propext, Classical.choice, Quot.sound |
| `ThermoFun.Cork.C114_liquid_partial` | propext, Classical.choice, Quot.sound |
| `ThermoFun.Cork.C114_saturation_partial` | propext, Classical.choice, Quot.sound |
| `ThermoFun.Cork.C114_root_refuted` | propext, Classical.choice, Quot.sound |
| `ThermoFun.Cork.C117_values_partial` | propext, Classical.choice, Quot.sound |
| `ThermoFun.Cork.C117_zero_partial` | propext, Classical.choice, Quot.sound |
| `ThermoFun.Cork.C117_gibbs_refuted` | propext, Classical.choice, Quot.sound |
| `ThermoFun.Cork.C113_volume` | propext, Classical.choice, Quot.sound |
| `ThermoFun.Cork.C113_temperature` | propext, Classical.choice, Quot.sound |
| `ThermoFun.Cork.C113_limit` | propext, Classical.choice, Quot.sound |
| `ThermoFun.Cork.C166_cork_partial` | propext, Classical.choice, Quot.sound |
| `ThermoFun.Cork.C166_hydrogen_refuted` | propext, Classical.choice, Quot.sound |
| `ThermoFun.Cork.C166_methane_refuted` | propext, Classical.choice, Quot.sound |
| `ThermoFun.Cork.C166_co2_partial` | propext, Classical.choice, Quot.sound |
| `ThermoFun.Cork.C166_steam_partial` | propext, Classical.choice, Quot.sound |
| `ThermoFun.Cork.C166_steam_refuted` | propext, Classical.choice, Quot.sound |
| `ThermoFun.Cork.C115_co2_partial` | propext, Classical.choice, Quot.sound |
| `ThermoFun.Cork.C115_vapour_partial` | propext, Classical.choice, Quot.sound |
| `ThermoFun.Cork.C115_steam_refuted` | propext, Classical.choice, Quot.sound |
| `ThermoFun.Cork.C115_co2_refuted` | propext, Classical.choice, Quot.sound |
| `ThermoFun.Cork.C116_steam_partial` | propext, Classical.choice, Quot.sound |
| `ThermoFun.Cork.C116_jump_refuted` | propext, Classical.choice, Quot.sound |
| `ThermoFun.Engine.C162_partial` | propext, Classical.choice, Quot.sound |
| `ThermoFun.Engine.C162_energy_refuted` | propext, Classical.choice, Quot.sound |
| `ThermoFun.Engine.C162_gas_refuted` | propext, Classical.choice, Quot.sound |
| `ThermoFun.Js.C50_finite_maps` | propext, Classical.choice, Quot.sound |
| `ThermoFun.Js.C50_references` | propext, Classical.choice, Quot.sound |
| `ThermoFun.Js.C50_element_references` | propext, Classical.choice, Quot.sound |
| `ThermoFun.Js.C52_prefix_partial` | propext, Classical.choice, Quot.sound |
| `ThermoFun.Js.C52_malformed_refuted` | propext, Classical.choice, Quot.sound |
| `ThermoFun.Js.C52_silent_refuted` | propext, Classical.choice, Quot.sound |
| `ThermoFun.Js.C90_idempotent` | propext, Classical.choice, Quot.sound |
| `ThermoFun.Js.C90_last_wins` | propext, Classical.choice, Quot.sound |
| `ThermoFun.Js.C53_own_elements_partial` | propext, Classical.choice, Quot.sound |
| `ThermoFun.Js.C53_overwrite_refuted` | propext, Classical.choice, Quot.sound |
| `ThermoFun.Js.C53_exception_refuted` | propext, Classical.choice, Quot.sound |
| `ThermoFun.Js.C53_created_partial` | propext, Classical.choice, Quot.sound |
| `ThermoFun.Js.C53_created_refuted` | propext, Classical.choice, Quot.sound |
| `ThermoFun.Js.C54_substances` | propext, Classical.choice, Quot.sound |
| `ThermoFun.Js.C54_elements_refuted` | propext, Classical.choice, Quot.sound |
| `ThermoFun.Js.C54_equality_refuted` | propext, Classical.choice, Quot.sound |
| `ThermoFun.Js.C54_elements_partial` | propext, Classical.choice, Quot.sound |
| `ThermoFun.Js.C54_formula_partial` | propext, Classical.choice, Quot.sound |
| `ThermoFun.C26_DolejsManning` | propext, Classical.choice, Quot.sound |
| `ThermoFun.C26_FrantzMarshall` | propext, Classical.choice, Quot.sound |
| `ThermoFun.C26_RyzhenkoBryzgalin` | propext, Classical.choice, Quot.sound |
| `ThermoFun.C27_declared_partial` | propext, Classical.choice, Quot.sound |
| `ThermoFun.C27_DolejsManning_refuted` | propext, Classical.choice, Quot.sound |
| `ThermoFun.C27_logK_refuted` | propext, Classical.choice, Quot.sound |
| `ThermoFun.C69_density_partial` | propext, Classical.choice, Quot.sound |
| `ThermoFun.C69_RyzhenkoBryzgalin_refuted` | propext, Classical.choice, Quot.sound |
| `ThermoFun.Double.C150_points` | propext, Classical.choice, Quot.sound |
| `ThermoFun.Double.C150_partial` | propext, Classical.choice, Quot.sound |
| `ThermoFun.Double.C150_refuted` | propext, Classical.choice, Quot.sound |
| `ThermoFun.Double.C150_divergence_refuted` | propext, Classical.choice, Quot.sound |
| `ThermoFun.Double.C150_ascending` | propext, Classical.choice, Quot.sound |
| `ThermoFun.Double.C151_partial` | propext, Classical.choice, Quot.sound |
| `ThermoFun.Double.C151_refuted` | propext, Classical.choice, Quot.sound |
| `ThermoFun.Double.C151_report_refuted` | propext, Classical.choice, Quot.sound |
| `ThermoFun.Double.C151_bound` | propext, Classical.choice, Quot.sound |
| `ThermoFun.C29_integrals` | propext, Classical.choice, Quot.sound |
| `ThermoFun.C29_reported_partial` | propext, Classical.choice, Quot.sound |
| `ThermoFun.C29_refuted` | propext, Classical.choice, Quot.sound |
| `ThermoFun.C30_transitions` | propext, Classical.choice, Quot.sound |
| `ThermoFun.C31_partial` | propext, Classical.choice, Quot.sound |
| `ThermoFun.C31_refuted` | propext, Classical.choice, Quot.sound |
| `ThermoFun.C32_partial` | propext, Classical.choice, Quot.sound |
| `ThermoFun.C32_refuted` | propext, Classical.choice, Quot.sound |
| `ThermoFun.Engine.C41_hydrogen` | propext, Classical.choice, Quot.sound |
| `ThermoFun.Engine.C41_hydrogen_record` | propext, Classical.choice, Quot.sound |
| `ThermoFun.Engine.C42_hess` | propext, Classical.choice, Quot.sound |
| `ThermoFun.Engine.C42_reverse` | propext, Classical.choice, Quot.sound |
| `ThermoFun.Engine.C43_hess_refuted` | propext, Classical.choice, Quot.sound |
| `ThermoFun.Engine.C43_hess_partial` | propext, Classical.choice, Quot.sound |
| `ThermoFun.Engine.C44_closure_partial` | propext, Classical.choice, Quot.sound |
| `ThermoFun.Engine.C44_closure_refuted` | propext, Classical.choice, Quot.sound |
| `ThermoFun.Engine.C46_terminates_partial` | propext, Classical.choice, Quot.sound |
| `ThermoFun.Engine.C46_terminates_refuted` | propext, Classical.choice, Quot.sound |
| `ThermoFun.Engine.C65_iequals_lower` | propext, Classical.choice, Quot.sound |
| `ThermoFun.Engine.C65_iequals_equivalence` | propext, Classical.choice, Quot.sound |
| `ThermoFun.Engine.C47_fallback` | propext, Classical.choice, Quot.sound |
| `ThermoFun.Engine.C48_steam` | propext, Classical.choice, Quot.sound |
| `ThermoFun.Engine.C48_berman` | propext, Classical.choice, Quot.sound |
| `ThermoFun.Engine.C88_convention_refuted` | propext, Classical.choice, Quot.sound |
| `ThermoFun.Engine.C88_convention_partial` | propext, Classical.choice, Quot.sound |
| `ThermoFun.Engine.C48_fallback_refuted` | propext, Classical.choice, Quot.sound |
| `ThermoFun.Engine.C85_change_refuted` | propext, Classical.choice, Quot.sound |
| `ThermoFun.Engine.C85_change_partial` | propext, Classical.choice, Quot.sound |
| `ThermoFun.Engine.C49_methods_partial` | propext, Classical.choice, Quot.sound |
| `ThermoFun.Engine.C49_ignored_refuted` | propext, Classical.choice, Quot.sound |
| `ThermoFun.Engine.C45_history_partial` | propext, Classical.choice, Quot.sound |
| `ThermoFun.Engine.C45_history_refuted` | propext, Classical.choice, Quot.sound |
| `ThermoFun.Engine.C45_nomethods_refuted` | propext, Classical.choice, Quot.sound |
| `ThermoFun.Engine.C45_solvent_refuted` | propext, Classical.choice, Quot.sound |
| `ThermoFun.Engine.C84_correction_partial` | propext, Classical.choice, Quot.sound |
| `ThermoFun.Engine.C84_correction_refuted` | propext, Classical.choice, Quot.sound |
| `ThermoFun.Engine.C86_derivatives_partial` | propext, Classical.choice, Quot.sound |
| `ThermoFun.Engine.C86_ddt_refuted` | propext, Classical.choice, Quot.sound |
| `ThermoFun.Engine.C87_constant_volume_partial` | propext, Classical.choice, Quot.sound |
| `ThermoFun.Engine.C87_lnK_refuted` | propext, Classical.choice, Quot.sound |
| `ThermoFun.Engine.C86_ddp_refuted` | propext, Classical.choice, Quot.sound |
| `ThermoFun.Equation.C19_round_trip` | propext, Classical.choice, Quot.sound |
| `ThermoFun.Equation.C19_names_refuted` | propext, Classical.choice, Quot.sound |
| `ThermoFun.Equation.C19_reuse_refuted` | propext, Classical.choice, Quot.sound |
| `ThermoFun.Equation.C20_net_refuted` | propext, Classical.choice, Quot.sound |
| `ThermoFun.Equation.C20_single_partial` | propext, Classical.choice, Quot.sound |
| `ThermoFun.Errors.C168_read_partial` | propext, Classical.choice, Quot.sound |
| `ThermoFun.Errors.C168_distinct_partial` | propext, Classical.choice, Quot.sound |
| `ThermoFun.Errors.C168_frame_partial` | propext, Classical.choice, Quot.sound |
| `ThermoFun.Errors.C168_tail_partial` | propext, Classical.choice, Quot.sound |
| `ThermoFun.Errors.C168_documented_refuted` | propext, Classical.choice, Quot.sound |
| `ThermoFun.Errors.C168_path_refuted` | propext, Classical.choice, Quot.sound |
| `ThermoFun.Errors.C168_lines_refuted` | propext, Classical.choice, Quot.sound |
| `ThermoFun.Errors.C168_forged_refuted` | propext, Classical.choice, Quot.sound |
| `ThermoFun.Errors.C168_file_refuted` | propext, Classical.choice, Quot.sound |
| `ThermoFun.Errors.C168_range_refuted` | propext, Classical.choice, Quot.sound |
| `ThermoFun.Errors.C168_range_partial` | propext, Classical.choice, Quot.sound |
| `ThermoFun.Errors.C168_log_partial` | propext, Classical.choice, Quot.sound |
| `ThermoFun.Errors.C168_log_refuted` | propext, Classical.choice, Quot.sound |
| `ThermoFun.Errors.C168_update_partial` | propext, Quot.sound |
| `ThermoFun.Errors.C168_last_partial` | propext, Quot.sound |
| `ThermoFun.Errors.C168_clear_partial` | propext, Quot.sound |
| `ThermoFun.Errors.C168_both_refuted` | propext |
| `ThermoFun.Errors.C168_unregistered_partial` | propext |
| `ThermoFun.Errors.C168_unopened_refuted` | propext, Classical.choice, Quot.sound |
| `ThermoFun.Gas.C172_cork_limit_refuted` | propext, Classical.choice, Quot.sound |
| `ThermoFun.Gas.C172_stp_limit_refuted` | propext, Classical.choice, Quot.sound |
| `ThermoFun.Gas.C172_heat_limit_refuted` | propext, Classical.choice, Quot.sound |
| `ThermoFun.Engine.C155_cork_refuted` | propext, Classical.choice, Quot.sound |
| `ThermoFun.Engine.C155_stp_refuted` | propext, Classical.choice, Quot.sound |
| `ThermoFun.Double.C152_partial` | propext, Classical.choice, Quot.sound |
| `ThermoFun.Double.C152_temperature_refuted` | propext, Classical.choice, Quot.sound |
| `ThermoFun.Double.C152_small_refuted` | propext, Classical.choice, Quot.sound |
| `ThermoFun.Double.C152_order` | propext, Classical.choice, Quot.sound |
| `ThermoFun.Double.C152_cell` | propext, Classical.choice, Quot.sound |
| `ThermoFun.Engine.C112_record` | propext, Classical.choice, Quot.sound |
| `ThermoFun.Engine.C112_file` | propext, Classical.choice, Quot.sound |
| `ThermoFun.C158_reaktoro_partial` | propext, Classical.choice, Quot.sound |
| `ThermoFun.C158_gems_partial` | propext, Classical.choice, Quot.sound |
| `ThermoFun.C158_refuted` | propext, Classical.choice, Quot.sound |
| `ThermoFun.C72_reaktoro` | propext, Classical.choice, Quot.sound |
| `ThermoFun.C72_gems_partial` | propext, Classical.choice, Quot.sound |
| `ThermoFun.C72_gems_wrong_sign` | propext, Classical.choice, Quot.sound |
| `ThermoFun.C72_gems_refuted` | propext, Classical.choice, Quot.sound |
| `ThermoFun.Gas.C99_one_partial` | propext, Classical.choice, Quot.sound |
| `ThermoFun.Gas.C99_three_partial` | propext, Classical.choice, Quot.sound |
| `ThermoFun.Gas.C99_inflexion_refuted` | propext, Classical.choice, Quot.sound |
| `ThermoFun.Gas.C99_double_refuted` | propext, Classical.choice, Quot.sound |
| `ThermoFun.Gas.C99_three_refuted` | propext, Classical.choice, Quot.sound |
| `ThermoFun.Gas.C100_pr_partial` | propext, Classical.choice, Quot.sound |
| `ThermoFun.Gas.C100_srk_partial` | propext, Classical.choice, Quot.sound |
| `ThermoFun.Gas.C100_pr_three_partial` | propext, Classical.choice, Quot.sound |
| `ThermoFun.Gas.C100_srk_three_partial` | propext, Classical.choice, Quot.sound |
| `ThermoFun.Gas.C100_stable_partial` | propext, Classical.choice, Quot.sound |
| `ThermoFun.Gas.C101_pr_partial` | propext, Classical.choice, Quot.sound |
| `ThermoFun.Gas.C101_srk_partial` | propext, Classical.choice, Quot.sound |
| `ThermoFun.Gas.C172_prsv_refuted` | propext, Classical.choice, Quot.sound |
| `ThermoFun.Gas.C172_critical_partial` | propext, Classical.choice, Quot.sound |
| `ThermoFun.Gas.C172_nan_refuted` | propext, Classical.choice, Quot.sound |
| `ThermoFun.Gas.C172_partial` | propext, Classical.choice, Quot.sound |
| `ThermoFun.Gas.C171_above_partial` | propext, Classical.choice, Quot.sound |
| `ThermoFun.Gas.C171_below_partial` | propext, Classical.choice, Quot.sound |
| `ThermoFun.Gas.C171_program_partial` | propext, Classical.choice, Quot.sound |
| `ThermoFun.Gas.C171_consistent_partial` | propext, Classical.choice, Quot.sound |
| `ThermoFun.Gas.C171_heavy_refuted` | propext, Classical.choice, Quot.sound |
| `ThermoFun.Gas.C171_inflexion_refuted` | propext, Classical.choice, Quot.sound |
| `ThermoFun.Gas.C100_inflexion_refuted` | propext, Classical.choice, Quot.sound |
| `ThermoFun.Gas.C104_values_partial` | propext, Classical.choice, Quot.sound |
| `ThermoFun.Gas.C104_zero_partial` | propext, Classical.choice, Quot.sound |
| `ThermoFun.Gas.C104_gibbs_refuted` | propext, Classical.choice, Quot.sound |
| `ThermoFun.Gas.C104_heat_refuted` | propext, Classical.choice, Quot.sound |
| `ThermoFun.Gas.C104_volume_refuted` | propext, Classical.choice, Quot.sound |
| `ThermoFun.Gas.C105_reads_partial` | propext, Classical.choice, Quot.sound |
| `ThermoFun.Gas.C105_refuted` | propext, Classical.choice, Quot.sound |
| `ThermoFun.Gas.C165_pr_partial` | propext, Classical.choice, Quot.sound |
| `ThermoFun.Gas.C165_srk_partial` | propext, Classical.choice, Quot.sound |
| `ThermoFun.Gas.C165_low_pr_partial` | propext, Classical.choice, Quot.sound |
| `ThermoFun.Gas.C165_low_srk_partial` | propext, Classical.choice, Quot.sound |
| `ThermoFun.Gas.C165_entry_partial` | propext, Classical.choice, Quot.sound |
| `ThermoFun.Gas.C165_dense_refuted` | propext, Classical.choice, Quot.sound |
| `ThermoFun.Gas.C172_limit_refuted` | propext, Classical.choice, Quot.sound |
| `ThermoFun.Gas.C100_liquid_pr_partial` | propext, Classical.choice, Quot.sound |
| `ThermoFun.Gas.C100_liquid_srk_partial` | propext, Classical.choice, Quot.sound |
| `ThermoFun.Gas.C101_liquid_pr_partial` | propext, Classical.choice, Quot.sound |
| `ThermoFun.Gas.C101_liquid_srk_partial` | propext, Classical.choice, Quot.sound |
| `ThermoFun.Engine.C155_real_gas_any_refuted` | propext, Classical.choice, Quot.sound |
| `ThermoFun.Gas.C98_critical_refuted` | propext, Classical.choice, Quot.sound |
| `ThermoFun.Engine.C155_critical_refuted` | propext, Classical.choice, Quot.sound |
| `ThermoFun.Engine.C155_real_gas_partial` | propext, Classical.choice, Quot.sound |
| `ThermoFun.Engine.C155_real_gas_refuted` | propext, Classical.choice, Quot.sound |
| `ThermoFun.Gas.C165_residual_srk_partial` | propext, Classical.choice, Quot.sound |
| `ThermoFun.Gas.C165_residual_pr_partial` | propext, Classical.choice, Quot.sound |
| `ThermoFun.Gas.C165_residual_entry_partial` | propext, Classical.choice, Quot.sound |
| `ThermoFun.Gas.C102_srk_partial` | propext, Classical.choice, Quot.sound |
| `ThermoFun.Gas.C103_srk_partial` | propext, Classical.choice, Quot.sound |
| `ThermoFun.Gas.C102_pr78_partial` | propext, Classical.choice, Quot.sound |
| `ThermoFun.Gas.C103_pr78_partial` | propext, Classical.choice, Quot.sound |
| `ThermoFun.Gas.C102_prsv_partial` | propext, Classical.choice, Quot.sound |
| `ThermoFun.Gas.C103_prsv_partial` | propext, Classical.choice, Quot.sound |
| `ThermoFun.Gas.C102_critical_refuted` | propext, Classical.choice, Quot.sound |
| `ThermoFun.Gas.C102_pr78_sign_refuted` | propext, Classical.choice, Quot.sound |
| `ThermoFun.Gas.C102_prsv_refuted` | propext, Classical.choice, Quot.sound |
| `ThermoFun.Gas.C103_prsv_refuted` | propext, Classical.choice, Quot.sound |
| `ThermoFun.Gas.C103_k2_refuted` | propext, Classical.choice, Quot.sound |
| `ThermoFun.Gems.C123_consistent` | propext, Classical.choice, Quot.sound |
| `ThermoFun.Gems.C124_partial` | propext, Classical.choice, Quot.sound |
| `ThermoFun.Gems.C124_refuted` | propext, Classical.choice, Quot.sound |
| `ThermoFun.Gems.C125_partial` | propext, Classical.choice, Quot.sound |
| `ThermoFun.Gems.C125_refuted` | propext, Classical.choice, Quot.sound |
| `ThermoFun.Gems.C126_partial` | propext, Classical.choice, Quot.sound |
| `ThermoFun.Gems.C126_refuted` | propext, Classical.choice, Quot.sound |
| `ThermoFun.Gems.Crit.C141_refuted` | propext, Classical.choice, Quot.sound |
| `ThermoFun.Gems.Crit.C141_partial` | propext, Classical.choice, Quot.sound |
| `ThermoFun.Gems.Crit.C142_refuted` | propext, Classical.choice, Quot.sound |
| `ThermoFun.Gems.Crit.C142_partial` | propext, Classical.choice, Quot.sound |
| `ThermoFun.Gems.Crit.C143_partial` | propext, Classical.choice, Quot.sound |
| `ThermoFun.Gems.Crit.C143_refuted` | propext, Classical.choice, Quot.sound |
| `ThermoFun.Gems.C127_ends` | propext, Classical.choice, Quot.sound |
| `ThermoFun.Gems.C127_partial` | propext, Classical.choice, Quot.sound |
| `ThermoFun.Gems.C127_refuted` | propext, Classical.choice, Quot.sound |
| `ThermoFun.Gems.C128_partial` | propext, Classical.choice, Quot.sound |
| `ThermoFun.Gems.C129_partial` | propext, Classical.choice, Quot.sound |
| `ThermoFun.Gems.C129_refuted` | propext, Classical.choice, Quot.sound |
| `ThermoFun.Gems.C132_partial` | propext, Classical.choice, Quot.sound |
| `ThermoFun.Gems.C132_refuted` | propext, Classical.choice, Quot.sound |
| `ThermoFun.Gems.C130_partial` | propext, Classical.choice, Quot.sound |
| `ThermoFun.Gems.C130_refuted` | propext, Classical.choice, Quot.sound |
| `ThermoFun.Gems.C131_partial` | propext, Classical.choice, Quot.sound |
| `ThermoFun.Gems.C131_refuted` | propext, Classical.choice, Quot.sound |
| `ThermoFun.Gems.C133_partial` | propext, Classical.choice, Quot.sound |
| `ThermoFun.Gems.C133_refuted` | propext, Classical.choice, Quot.sound |
| `ThermoFun.Gems.C134_partial` | propext, Classical.choice, Quot.sound |
| `ThermoFun.Gems.C134_refuted` | propext, Classical.choice, Quot.sound |
| `ThermoFun.C94_partial` | propext, Classical.choice, Quot.sound |
| `ThermoFun.C94_refuted` | propext, Classical.choice, Quot.sound |
| `ThermoFun.C39_hgk_partial` | propext, Classical.choice, Quot.sound |
| `ThermoFun.C39_hgk_refuted` | propext, Classical.choice, Quot.sound |
| `ThermoFun.C95_hgk` | propext, Classical.choice, Quot.sound |
| `ThermoFun.C37_partial` | propext, Classical.choice, Quot.sound |
| `ThermoFun.C37_refuted` | propext, Classical.choice, Quot.sound |
| `ThermoFun.C37_reaktoro_entry_partial` | propext, Classical.choice, Quot.sound |
| `ThermoFun.C37_gems_entry_partial` | propext, Classical.choice, Quot.sound |
| `ThermoFun.C73_reference` | propext, Classical.choice, Quot.sound |
| `ThermoFun.C74_partial` | propext, Classical.choice, Quot.sound |
| `ThermoFun.C74_refuted` | propext, Classical.choice, Quot.sound |
| `ThermoFun.C36_consistent` | propext, Classical.choice, Quot.sound |
| `ThermoFun.C36_reference` | propext, Classical.choice, Quot.sound |
| `ThermoFun.C70_heat_capacity_refuted` | propext, Classical.choice, Quot.sound |
| `ThermoFun.C70_volume_refuted` | propext, Classical.choice, Quot.sound |
| `ThermoFun.C71_partial` | propext, Classical.choice, Quot.sound |
| `ThermoFun.C71_refuted` | propext, Classical.choice, Quot.sound |
| `ThermoFun.Engine.C156_partial` | propext, Classical.choice, Quot.sound |
| `ThermoFun.Engine.C156_order_partial` | propext, Classical.choice, Quot.sound |
| `ThermoFun.Engine.C156_refuted` | propext, Classical.choice, Quot.sound |
| `ThermoFun.Js.C156_files` | propext, Classical.choice, Quot.sound |
| `ThermoFun.C21_consistent` | propext, Classical.choice, Quot.sound |
| `ThermoFun.C21_both_refuted` | propext, Classical.choice, Quot.sound |
| `ThermoFun.C21_bounds_refuted` | propext, Classical.choice, Quot.sound |
| `ThermoFun.C21_defined_partial` | propext, Classical.choice, Quot.sound |
| `ThermoFun.C22_equilibrium` | propext, Classical.choice, Quot.sound |
| `ThermoFun.C22_three_term` | propext, Classical.choice, Quot.sound |
| `ThermoFun.C22_two_term_partial` | propext, Classical.choice, Quot.sound |
| `ThermoFun.C22_two_term_refuted` | propext, Classical.choice, Quot.sound |
| `ThermoFun.C22_missing_enthalpy_refuted` | propext, Classical.choice, Quot.sound |
| `ThermoFun.C22_missing_entropy_refuted` | propext, Classical.choice, Quot.sound |
| `ThermoFun.C22_one_term` | propext, Classical.choice, Quot.sound |
| `ThermoFun.C22_constant_G_refuted` | propext, Classical.choice, Quot.sound |
| `ThermoFun.C23_downgrade` | propext, Classical.choice, Quot.sound |
| `ThermoFun.C23_zero_enthalpy_refuted` | propext, Classical.choice, Quot.sound |
| `ThermoFun.C24_frozen_refuted` | propext, Classical.choice, Quot.sound |
| `ThermoFun.C24_reference_partial` | propext, Classical.choice, Quot.sound |
| `ThermoFun.C25_logK_round_trip` | propext, Classical.choice, Quot.sound |
| `ThermoFun.C25_entropy_refuted` | propext, Classical.choice, Quot.sound |
| `ThermoFun.C25_Cp_round_trip` | propext, Classical.choice, Quot.sound |
| `ThermoFun.C25_reference_partial` | propext, Classical.choice, Quot.sound |
| `ThermoFun.C25_reference_refuted` | propext, Classical.choice, Quot.sound |
| `ThermoFun.C25_error` | propext, Classical.choice, Quot.sound |
| `ThermoFun.C68_generated_partial` | propext, Classical.choice, Quot.sound |
| `ThermoFun.C68_constant_refuted` | propext, Classical.choice, Quot.sound |
| `ThermoFun.C69_logK_energies_partial` | propext, Classical.choice, Quot.sound |
| `ThermoFun.C69_zero_enthalpy_refuted` | propext, Classical.choice, Quot.sound |
| `ThermoFun.C05_memoizeN_transparent` | propext |
| `ThermoFun.C05_memoize_transparent` | propext |
| `ThermoFun.C06_bounded` | propext, Classical.choice, Quot.sound |
| `ThermoFun.C07_recursion_bound` | propext, Classical.choice, Quot.sound |
| `ThermoFun.C07_recursive_transparent` | propext, Quot.sound |
| `ThermoFun.C08_fifo` | propext, Quot.sound |
| `ThermoFun.C08_lru_refuted` | none |
| `ThermoFun.C08_capacity_one_never_hits` | propext, Classical.choice, Quot.sound |
| `ThermoFun.C09_fresh_refuted` | none |
| `ThermoFun.C09_fresh_partial` | propext, Quot.sound |
| `ThermoFun.C10_default_refuted` | none |
| `ThermoFun.C10_throw_refuted` | none |
| `ThermoFun.C10_last_partial` | propext |
| `ThermoFun.C11_writeback_refuted` | none |
| `ThermoFun.C11_dangling_refuted` | none |
| `ThermoFun.C11_reference_partial` | propext, Quot.sound |
| `ThermoFun.C66_copy_bound_refuted` | none |
| `ThermoFun.C66_copy_answers_partial` | propext, Quot.sound |
| `ThermoFun.C66_copy_bound_partial` | propext, Classical.choice, Quot.sound |
| `ThermoFun.Engine.C110_minerals` | propext, Classical.choice, Quot.sound |
| `ThermoFun.Engine.C111_reference_partial` | propext, Classical.choice, Quot.sound |
| `ThermoFun.Engine.C111_volume_refuted` | propext, Classical.choice, Quot.sound |
| `ThermoFun.Engine.C118_named_partial` | propext, Classical.choice, Quot.sound |
| `ThermoFun.Engine.C118_solid_partial` | propext, Classical.choice, Quot.sound |
| `ThermoFun.Engine.C118_ignored_refuted` | propext, Classical.choice, Quot.sound |
| `ThermoFun.Engine.C122_record_refuted` | propext, Classical.choice, Quot.sound |
| `ThermoFun.Csv.C146_partial` | propext, Classical.choice, Quot.sound |
| `ThermoFun.Csv.C146_electro_refuted` | propext, Classical.choice, Quot.sound |
| `ThermoFun.Csv.C146_early_refuted` | propext, Classical.choice, Quot.sound |
| `ThermoFun.Csv.C146_reopen_refuted` | propext, Classical.choice, Quot.sound |
| `ThermoFun.Csv.C146_comma_refuted` | propext, Classical.choice, Quot.sound |
| `ThermoFun.Csv.C146_folder` | propext, Quot.sound |
| `ThermoFun.Csv.C146_folder_refuted` | propext, Classical.choice, Quot.sound |
| `ThermoFun.Js.C92_substances` | propext, Classical.choice, Quot.sound |
| `ThermoFun.Js.C92_wrapped` | propext, Classical.choice, Quot.sound |
| `ThermoFun.Js.C92_reactions` | propext, Classical.choice, Quot.sound |
| `ThermoFun.Js.C92_elements_partial` | propext, Classical.choice, Quot.sound |
| `ThermoFun.Js.C89_mistaken_units_partial` | propext, Classical.choice, Quot.sound |
| `ThermoFun.Js.C89_expansivity_refuted` | propext, Classical.choice, Quot.sound |
| `ThermoFun.Js.C62_substances_partial` | propext, Classical.choice, Quot.sound |
| `ThermoFun.Js.C62_reactions` | propext, Classical.choice, Quot.sound |
| `ThermoFun.Js.C62_distinct_partial` | propext, Classical.choice, Quot.sound |
| `ThermoFun.Js.C62_distinct_reactions` | propext, Classical.choice, Quot.sound |
| `ThermoFun.Js.C62_ignored_refuted` | propext, Classical.choice, Quot.sound |
| `ThermoFun.Js.C63_complete_partial` | propext, Classical.choice, Quot.sound |
| `ThermoFun.Js.C63_leak_refuted` | propext, Classical.choice, Quot.sound |
| `ThermoFun.Js.C63_indeterminate_refuted` | propext, Classical.choice, Quot.sound |
| `ThermoFun.Js.C91_default_units` | propext, Classical.choice, Quot.sound |
| `ThermoFun.Js.C91_stated_units_partial` | propext, Classical.choice, Quot.sound |
| `ThermoFun.Js.C91_hkf_units_refuted` | propext, Classical.choice, Quot.sound |
| `ThermoFun.Py.C161_partial` | propext, Quot.sound |
| `ThermoFun.Py.C161_meant_partial` | propext, Classical.choice, Quot.sound |
| `ThermoFun.Py.C161_queries_partial` | propext, Classical.choice, Quot.sound |
| `ThermoFun.Py.C161_order_partial` | propext, Classical.choice, Quot.sound |
| `ThermoFun.Py.C161_unusable_refuted` | propext, Classical.choice, Quot.sound |
| `ThermoFun.Py.C161_empty_refuted` | propext |
| `ThermoFun.Py.C161_loggers_refuted` | propext |
| `ThermoFun.Py.C161_alive_partial` | propext, Classical.choice, Quot.sound |
| `ThermoFun.Py.C161_dangling_refuted` | propext, Classical.choice, Quot.sound |
| `ThermoFun.Py.C161_numbers_partial` | propext, Classical.choice, Quot.sound |
| `ThermoFun.Js.C163_partial` | propext, Classical.choice, Quot.sound |
| `ThermoFun.Js.C163_copy_partial` | propext, Classical.choice, Quot.sound |
| `ThermoFun.Js.C163_edited_refuted` | propext, Classical.choice, Quot.sound |
| `ThermoFun.Js.C163_created_refuted` | propext, Classical.choice, Quot.sound |
| `ThermoFun.Js.C163_valence_refuted` | propext, Classical.choice, Quot.sound |
| `ThermoFun.Js.C163_label_refuted` | propext, Classical.choice, Quot.sound |
| `ThermoFun.Js.C164_partial` | propext, Classical.choice, Quot.sound |
| `ThermoFun.Js.C164_warning_refuted` | propext, Classical.choice, Quot.sound |
| `ThermoFun.Js.C164_fraction_refuted` | propext, Classical.choice, Quot.sound |
| `ThermoFun.Js.C164_halfway_refuted` | propext, Classical.choice, Quot.sound |
| `ThermoFun.Engine.C155_solids_partial` | propext, Classical.choice, Quot.sound |
| `ThermoFun.Engine.C155_birch_partial` | propext, Classical.choice, Quot.sound |
| `ThermoFun.Engine.C155_birch_refuted` | propext, Classical.choice, Quot.sound |
| `ThermoFun.Engine.C155_ideal_gas_partial` | propext, Classical.choice, Quot.sound |
| `ThermoFun.Engine.C155_ideal_gas_refuted` | propext, Classical.choice, Quot.sound |
| `ThermoFun.Engine.C155_interval_refuted` | propext, Classical.choice, Quot.sound |
| `ThermoFun.Engine.C155_landau_partial` | propext, Classical.choice, Quot.sound |
| `ThermoFun.Engine.C155_landau_refuted` | propext, Classical.choice, Quot.sound |
| `ThermoFun.C155_solutes_partial` | propext, Classical.choice, Quot.sound |
| `ThermoFun.C155_hp98_refuted` | propext, Classical.choice, Quot.sound |
| `ThermoFun.Sat.C153_partial` | propext, Classical.choice, Quot.sound |
| `ThermoFun.Sat.C154_partial` | propext, Classical.choice, Quot.sound |
| `ThermoFun.Sat.C153_saturation_partial` | propext, Classical.choice, Quot.sound |
| `ThermoFun.Sat.C153_refuted` | propext, Classical.choice, Quot.sound |
| `ThermoFun.Sat.C154_refuted` | propext, Classical.choice, Quot.sound |
| `ThermoFun.Sat.C154_reaction_refuted` | propext, Classical.choice, Quot.sound |
| `ThermoFun.Scopes.C148_partial` | propext, Quot.sound |
| `ThermoFun.Scopes.C148_refuted` | propext, Classical.choice, Quot.sound |
| `ThermoFun.Js.C170_setters` | propext, Classical.choice, Quot.sound |
| `ThermoFun.Js.C170_equation_partial` | propext, Classical.choice, Quot.sound |
| `ThermoFun.Js.C170_equation_refuted` | propext, Classical.choice, Quot.sound |
| `ThermoFun.Js.C170_setEquation_refuted` | propext, Classical.choice, Quot.sound |
| `ThermoFun.C35_consistent_partial` | propext, Classical.choice, Quot.sound |
| `ThermoFun.C35_missing_parameters` | propext, Classical.choice, Quot.sound |
| `ThermoFun.C35_reference_refuted` | propext, Classical.choice, Quot.sound |
| `ThermoFun.C96_partial` | propext, Classical.choice, Quot.sound |
| `ThermoFun.C96_refuted` | propext, Classical.choice, Quot.sound |
| `ThermoFun.C97_an91_partial` | propext, Classical.choice, Quot.sound |
| `ThermoFun.C97_an91_refuted` | propext, Classical.choice, Quot.sound |
| `ThermoFun.C97_an91_volume_refuted` | propext, Classical.choice, Quot.sound |
| `ThermoFun.C97_hp98_partial` | propext, Classical.choice, Quot.sound |
| `ThermoFun.C97_hp98_refuted` | propext, Classical.choice, Quot.sound |
| `ThermoFun.C97_hp98_enthalpy_refuted` | propext, Classical.choice, Quot.sound |
| `ThermoFun.C105_solutes_partial` | propext, Classical.choice, Quot.sound |
| `ThermoFun.C105_ad_refuted` | propext, Classical.choice, Quot.sound |
| `ThermoFun.Gas.C166_pr_partial` | propext, Classical.choice, Quot.sound |
| `ThermoFun.Gas.C166_srk_partial` | propext, Classical.choice, Quot.sound |
| `ThermoFun.Gas.C166_choice_pr_partial` | propext, Classical.choice, Quot.sound |
| `ThermoFun.Gas.C166_choice_srk_partial` | propext, Classical.choice, Quot.sound |
| `ThermoFun.C166_murnaghan_partial` | propext, Classical.choice, Quot.sound |
| `ThermoFun.C166_hot_refuted` | propext, Classical.choice, Quot.sound |
| `ThermoFun.C166_berman_refuted` | propext, Classical.choice, Quot.sound |
| `ThermoFun.Stp.C119_derivatives_partial` | propext, Classical.choice, Quot.sound |
| `ThermoFun.Stp.C119_pressure_partial` | propext, Classical.choice, Quot.sound |
| `ThermoFun.Stp.C119_water_refuted` | propext, Classical.choice, Quot.sound |
| `ThermoFun.Stp.C120_density_exists_partial` | propext, Classical.choice, Quot.sound |
| `ThermoFun.Stp.C120_residual_partial` | propext, Classical.choice, Quot.sound |
| `ThermoFun.Stp.C120_newton_partial` | propext, Classical.choice, Quot.sound |
| `ThermoFun.Stp.C120_result_partial` | propext, Classical.choice, Quot.sound |
| `ThermoFun.Stp.C121_values_partial` | propext, Classical.choice, Quot.sound |
| `ThermoFun.Stp.C121_zero_partial` | propext, Classical.choice, Quot.sound |
| `ThermoFun.Stp.C121_gibbs_refuted` | propext, Classical.choice, Quot.sound |
| `ThermoFun.Stp.C121_formula_refuted` | propext, Classical.choice, Quot.sound |
| `ThermoFun.Stp.C121_range_refuted` | propext, Classical.choice, Quot.sound |
| `ThermoFun.Stp.C122_array_refuted` | propext, Classical.choice, Quot.sound |
| `ThermoFun.C28_exact` | propext, Classical.choice, Quot.sound |
| `ThermoFun.C33_constant_volume` | propext, Classical.choice, Quot.sound |
| `ThermoFun.C33_ideal_gas_partial` | propext, Classical.choice, Quot.sound |
| `ThermoFun.C33_ideal_gas_refuted` | propext, Classical.choice, Quot.sound |
| `ThermoFun.C34_linear_partial` | propext, Classical.choice, Quot.sound |
| `ThermoFun.C34_refuted` | propext, Classical.choice, Quot.sound |
| `ThermoFun.Templates.C147_partial` | propext, Classical.choice, Quot.sound |
| `ThermoFun.Templates.C147_unread_refuted` | propext, Classical.choice, Quot.sound |
| `ThermoFun.Templates.C147_missing_refuted` | propext, Classical.choice, Quot.sound |
| `ThermoFun.Templates.C147_properties` | propext, Classical.choice, Quot.sound |
| `ThermoFun.C01_derivatives_exact` | propext, Classical.choice, Quot.sound |
| `ThermoFun.C02_status_propagation` | propext, Classical.choice, Quot.sound |
| `ThermoFun.C03_err_nonneg` | propext, Classical.choice, Quot.sound |
| `ThermoFun.C03_err_add_sub` | propext, Classical.choice, Quot.sound |
| `ThermoFun.C03_err_mul_div` | propext, Classical.choice, Quot.sound |
| `ThermoFun.C03_compound_err_refuted` | propext, Classical.choice, Quot.sound |
| `ThermoFun.C03_divL_err_refuted` | propext, Classical.choice, Quot.sound |
| `ThermoFun.C03_function_err_partial` | propext, Classical.choice, Quot.sound |
| `ThermoFun.C03_function_err_refuted` | propext, Classical.choice, Quot.sound |
| `ThermoFun.C03_compound_err_partial` | propext, Classical.choice, Quot.sound |
| `ThermoFun.C04_compound_eq_free` | propext, Classical.choice, Quot.sound |
| `ThermoFun.C04_compound_double` | propext, Classical.choice, Quot.sound |
| `ThermoFun.C70_ordered_refuted` | propext, Classical.choice, Quot.sound |
| `ThermoFun.Engine.C169_transition_partial` | propext, Classical.choice, Quot.sound |
| `ThermoFun.Engine.C169_transition_refuted` | propext, Classical.choice, Quot.sound |
| `ThermoFun.Engine.C169_reference_refuted` | propext, Classical.choice, Quot.sound |
| `ThermoFun.Engine.C169_reference_temperature_refuted` | propext, Classical.choice, Quot.sound |
| `ThermoFun.Engine.C167_quadrature_partial` | propext, Classical.choice, Quot.sound |
| `ThermoFun.Engine.C167_defined_partial` | propext, Classical.choice, Quot.sound |
| `ThermoFun.Engine.C167_zero_refuted` | propext, Classical.choice, Quot.sound |
| `ThermoFun.Engine.C167_equilibrium_refuted` | propext, Classical.choice, Quot.sound |
| `ThermoFun.Engine.C167_closing_refuted` | propext, Classical.choice, Quot.sound |
| `ThermoFun.Units.C149_partial` | propext, Classical.choice, Quot.sound |
| `ThermoFun.Units.C149_refuted` | propext, Classical.choice, Quot.sound |
| `ThermoFun.Units.C149_tesla_refuted` | propext, Classical.choice, Quot.sound |
| `ThermoFun.Units.C149_acre_refuted` | propext, Classical.choice, Quot.sound |
| `ThermoFun.Units.C12_proportional` | propext, Classical.choice, Quot.sound |
| `ThermoFun.Units.C12_composes` | propext, Classical.choice, Quot.sound |
| `ThermoFun.Units.C14_exact` | propext, Classical.choice, Quot.sound |
| `ThermoFun.Units.C14_total` | propext, Classical.choice, Quot.sound |
| `ThermoFun.Units.C14_reversible` | propext, Classical.choice, Quot.sound |
| `ThermoFun.Units.C14_composes` | propext, Classical.choice, Quot.sound |
| `ThermoFun.Units.C14_monotone` | propext, Classical.choice, Quot.sound |
| `ThermoFun.Units.C14_scales` | propext, Classical.choice, Quot.sound |
| `ThermoFun.Units.C12_reversible` | propext, Classical.choice, Quot.sound |
| `ThermoFun.Units.C12_identity` | propext, Classical.choice, Quot.sound |
| `ThermoFun.Units.C13_factors` | propext, Classical.choice, Quot.sound |
| `ThermoFun.Units.C13_acyclic` | propext, Classical.choice, Quot.sound |
| `ThermoFun.Units.C16_meaning` | propext, Classical.choice, Quot.sound |
| `ThermoFun.Units.C15_number_or_error` | propext, Classical.choice, Quot.sound |
| `ThermoFun.Units.C15_iff_partial` | propext, Classical.choice, Quot.sound |
| `ThermoFun.Units.C15_sound_partial` | propext, Classical.choice, Quot.sound |
| `ThermoFun.Units.C15_dimensionless_refuted` | propext, Classical.choice, Quot.sound |
| `ThermoFun.Units.C15_fractional_refuted` | propext, Classical.choice, Quot.sound |
| `ThermoFun.Units.C15_transitive_refuted` | propext, Classical.choice, Quot.sound |
| `ThermoFun.Units.C15_relation` | propext, Classical.choice, Quot.sound |
| `ThermoFun.Units.C17_empty_refuted` | propext, Classical.choice, Quot.sound |
| `ThermoFun.Units.C17_leading_operator_refuted` | propext, Classical.choice, Quot.sound |
| `ThermoFun.Units.C17_empty_parentheses_refuted` | propext, Classical.choice, Quot.sound |
| `ThermoFun.Units.C17_garbage_accepted_refuted` | propext, Classical.choice, Quot.sound |
| `ThermoFun.Units.C17_no_undefined_partial` | propext, Classical.choice, Quot.sound |
| `ThermoFun.Units.C18_powers_partial` | propext, Classical.choice, Quot.sound |
| `ThermoFun.Units.C18_bar_refuted` | propext, Classical.choice, Quot.sound |
| `ThermoFun.Js.C92_unread_refuted` | propext, Classical.choice, Quot.sound |
| `ThermoFun.BM.C105_bm_partial` | propext, Classical.choice, Quot.sound |
| `ThermoFun.BM.C105_bm_refuted` | propext, Classical.choice, Quot.sound |
| `ThermoFun.Engine.C109_sum` | propext, Classical.choice, Quot.sound |
| `ThermoFun.Engine.C109_answers` | propext, Classical.choice, Quot.sound |
| `ThermoFun.Engine.C109_vantHoff` | propext, Classical.choice, Quot.sound |
| `ThermoFun.Engine.C109_planck` | propext, Classical.choice, Quot.sound |
| `ThermoFun.C93_partial` | propext, Classical.choice, Quot.sound |
| `ThermoFun.C93_refuted` | propext, Classical.choice, Quot.sound |
| `ThermoFun.C95_wp95` | propext, Classical.choice, Quot.sound |
| `ThermoFun.C39_wp95_partial` | propext, Classical.choice, Quot.sound |
| `ThermoFun.C139_carried` | propext, Classical.choice, Quot.sound |
| `ThermoFun.C78_distance_partial` | propext, Classical.choice, Quot.sound |
| `ThermoFun.C140_defects` | propext, Classical.choice, Quot.sound |
| `ThermoFun.C75_molar` | propext, Classical.choice, Quot.sound |
| `ThermoFun.C76_partial` | propext, Classical.choice, Quot.sound |
| `ThermoFun.C76_error_partial` | propext, Classical.choice, Quot.sound |
| `ThermoFun.C76_refuted` | propext, Classical.choice, Quot.sound |
| `ThermoFun.C77_partial` | propext, Classical.choice, Quot.sound |
| `ThermoFun.C77_refuted` | propext, Classical.choice, Quot.sound |
| `ThermoFun.C78_partial` | propext, Classical.choice, Quot.sound |
| `ThermoFun.C80_partial` | propext, Classical.choice, Quot.sound |
| `ThermoFun.C80_refuted` | propext, Classical.choice, Quot.sound |
| `ThermoFun.C81_partial` | propext, Classical.choice, Quot.sound |
| `ThermoFun.C81_refuted` | propext, Classical.choice, Quot.sound |
| `ThermoFun.C81_mixed_refuted` | propext, Classical.choice, Quot.sound |
| `ThermoFun.C81_unit_refuted` | propext, Classical.choice, Quot.sound |
| `ThermoFun.C83_harrisAlder` | propext, Classical.choice, Quot.sound |
| `ThermoFun.C82_newton` | propext, Classical.choice, Quot.sound |
| `ThermoFun.C82_fugacity` | propext, Classical.choice, Quot.sound |
| `ThermoFun.C82_density_partial` | propext, Classical.choice, Quot.sound |
| `ThermoFun.C82_refuted` | propext, Classical.choice, Quot.sound |
| `ThermoFun.C40_idealGas` | propext, Classical.choice, Quot.sound |
| `ThermoFun.Gems.C159_gems_partial` | propext, Classical.choice, Quot.sound |
| `ThermoFun.Gems.C159_gems_refuted` | propext, Classical.choice, Quot.sound |
| `ThermoFun.Gems.C159_permittivity_refuted` | propext, Classical.choice, Quot.sound |
| `ThermoFun.C135_curves` | propext, Classical.choice, Quot.sound |
| `ThermoFun.C136_partial` | propext, Classical.choice, Quot.sound |
| `ThermoFun.C136_refuted` | propext, Classical.choice, Quot.sound |
| `ThermoFun.C140_search` | propext, Classical.choice, Quot.sound |
| `ThermoFun.WP.C78_liquid_partial` | propext, Classical.choice, Quot.sound |
| `ThermoFun.C39_partial` | propext, Classical.choice, Quot.sound |
| `ThermoFun.C39_refuted` | propext, Classical.choice, Quot.sound |
| `ThermoFun.C79_partial` | propext, Classical.choice, Quot.sound |
| `ThermoFun.C79_refuted` | propext, Classical.choice, Quot.sound |
| `ThermoFun.C79_deviation_partial` | propext, Classical.choice, Quot.sound |
| `ThermoFun.C159_partial` | propext, Classical.choice, Quot.sound |
| `ThermoFun.C159_refuses` | propext, Classical.choice, Quot.sound |
| `ThermoFun.C159_volume_refuted` | propext, Classical.choice, Quot.sound |
| `ThermoFun.C159_range_refuted` | propext, Classical.choice, Quot.sound |
