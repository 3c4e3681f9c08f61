# Axioms of the theorems named in MANIFEST.json

From `#print axioms`. All are the standard axioms of Lean.

## Classical.choice, Quot.sound, propext (915 theorems)

`Sgrid.C01_hint_irrelevant`, `Sgrid.C01_param_map`, `Sgrid.C01_pi_words`, `Sgrid.C02_bool_words`, `Sgrid.C02_caches`, `Sgrid.C03_no_equal_sign`, `Sgrid.C03_parse_database`, `Sgrid.C04_getv_incomplete`, `Sgrid.C04_getv_partial`, `Sgrid.C04_getv_sound`, `Sgrid.C05_nextEntry_partial`, `Sgrid.C06_appends_effect`, `Sgrid.C06_appends_once_partial`, `Sgrid.C06_appends_twice_counterexample`, `Sgrid.C07_counterexample`, `Sgrid.C07_runs`, `Sgrid.C07_runs_partial`, `Sgrid.C08_each_line_once`, `Sgrid.C100_abort`, `Sgrid.C100_element`, `Sgrid.C100_flat`, `Sgrid.C100_surface`, `Sgrid.C101_analytic`, `Sgrid.C101_calls`, `Sgrid.C101_constant`, `Sgrid.C101_constant_counterexample`, `Sgrid.C101_constant_icn`, `Sgrid.C101_nodup`, `Sgrid.C101_normalderiv`, `Sgrid.C101_radiative`, `Sgrid.C101_set_boundary`, `Sgrid.C101_simpleExcision`, `Sgrid.C101_value`, `Sgrid.C101_vonNeumann`, `Sgrid.C101_wave`, `Sgrid.C101_wave_analytic`, `Sgrid.C102_chosen`, `Sgrid.C102_cosft1`, `Sgrid.C102_cosft2`, `Sgrid.C102_extrema`, `Sgrid.C102_four1`, `Sgrid.C102_four_coeffs`, `Sgrid.C102_four_eval`, `Sgrid.C102_four_int`, `Sgrid.C102_one_point_counterexample`, `Sgrid.C102_realft`, `Sgrid.C102_realft_back`, `Sgrid.C102_two_points_counterexample`, `Sgrid.C102_zeros`, `Sgrid.C103_X_boxes`, `Sgrid.C103_X_boxlist`, `Sgrid.C103_X_of_x`, `Sgrid.C103_Y_of_y`, `Sgrid.C103_ansorg`, `Sgrid.C103_boxes`, `Sgrid.C103_boxlist`, `Sgrid.C103_cartesian`, `Sgrid.C103_check_counterexample`, `Sgrid.C103_error`, `Sgrid.C103_find_ijk`, `Sgrid.C103_find_index`, `Sgrid.C103_found`, `Sgrid.C103_inner`, `Sgrid.C103_inplane`, `Sgrid.C103_move`, `Sgrid.C103_moved`, `Sgrid.C103_nearest`, `Sgrid.C103_nearest_box`, `Sgrid.C103_on_face`, `Sgrid.C103_recover`, `Sgrid.C103_returns`, `Sgrid.C103_round`, `Sgrid.C103_sing`, `Sgrid.C104_agrees`, `Sgrid.C104_agrees_std`, `Sgrid.C104_analysis`, `Sgrid.C104_coeffs`, `Sgrid.C104_eval`, `Sgrid.C104_exact`, `Sgrid.C104_interpolate`, `Sgrid.C104_line`, `Sgrid.C104_line_exact`, `Sgrid.C104_line_inplane`, `Sgrid.C104_roundtrip`, `Sgrid.C104_synthesis`, `Sgrid.C104_var`, `Sgrid.C105_2d`, `Sgrid.C105_2d_deriv`, `Sgrid.C105_3d`, `Sgrid.C105_3d_deriv`, `Sgrid.C105_box_only`, `Sgrid.C105_copy`, `Sgrid.C105_copy_deriv`, `Sgrid.C105_normal`, `Sgrid.C105_normal_XYZ`, `Sgrid.C105_normal_zero`, `Sgrid.C105_outward`, `Sgrid.C105_outward_XYZ`, `Sgrid.C105_partner_missing`, `Sgrid.C105_partner_touch`, `Sgrid.C106_alpha_rhs`, `Sgrid.C106_curvature`, `Sgrid.C106_density`, `Sgrid.C106_det`, `Sgrid.C106_gamma`, `Sgrid.C106_gamma_christoffel`, `Sgrid.C106_grid`, `Sgrid.C106_metric`, `Sgrid.C106_roundtrip`, `Sgrid.C106_roundtrip_back`, `Sgrid.C106_trace`, `Sgrid.C106_traceless`, `Sgrid.C107_23X`, `Sgrid.C107_23XYZ`, `Sgrid.C107_23Xminus1`, `Sgrid.C107_choose`, `Sgrid.C107_coord`, `Sgrid.C107_grid`, `Sgrid.C107_idempotent`, `Sgrid.C107_kill`, `Sgrid.C107_lastMode`, `Sgrid.C107_lmshift`, `Sgrid.C107_modes`, `Sgrid.C107_old`, `Sgrid.C107_phi`, `Sgrid.C107_region`, `Sgrid.C107_simple_counterexample`, `Sgrid.C107_sin`, `Sgrid.C107_std`, `Sgrid.C107_unew`, `Sgrid.C108_P_eval`, `Sgrid.C108_filter`, `Sgrid.C108_grid`, `Sgrid.C108_idempotent`, `Sgrid.C108_keep`, `Sgrid.C108_reverse`, `Sgrid.C108_sampling`, `Sgrid.C108_table`, `Sgrid.C108_unique`, `Sgrid.C108_unique_weights`, `Sgrid.C108_vec`, `Sgrid.C108_weights`, `Sgrid.C109_abort`, `Sgrid.C109_at`, `Sgrid.C109_counterexample`, `Sgrid.C109_line`, `Sgrid.C109_sphere`, `Sgrid.C109_volume`, `Sgrid.C10_counterexample`, `Sgrid.C10_parity_partial`, `Sgrid.C110_PG_counterexample`, `Sgrid.C110_addition`, `Sgrid.C110_fact`, `Sgrid.C110_integral`, `Sgrid.C110_inverse`, `Sgrid.C110_orthogonal`, `Sgrid.C110_orthonormal`, `Sgrid.C110_rotation`, `Sgrid.C110_small`, `Sgrid.C110_symmetry`, `Sgrid.C110_transpose`, `Sgrid.C110_versions`, `Sgrid.C110_zero`, `Sgrid.C111_abort`, `Sgrid.C111_modes`, `Sgrid.C111_number`, `Sgrid.C111_read`, `Sgrid.C111_run`, `Sgrid.C111_sYlm`, `Sgrid.C111_times`, `Sgrid.C112_ham`, `Sgrid.C112_metric`, `Sgrid.C112_mom`, `Sgrid.C112_smooth`, `Sgrid.C112_trK`, `Sgrid.C113_counterexample`, `Sgrid.C113_norm`, `Sgrid.C114_curvature`, `Sgrid.C114_metric`, `Sgrid.C114_smooth`, `Sgrid.C114_trace`, `Sgrid.C115_det`, `Sgrid.C115_gamma`, `Sgrid.C115_tracefree`, `Sgrid.C116_counterexample`, `Sgrid.C116_density`, `Sgrid.C116_det`, `Sgrid.C116_gzz`, `Sgrid.C116_lapse`, `Sgrid.C116_shift`, `Sgrid.C116_tracefree`, `Sgrid.C117_constraints`, `Sgrid.C117_fields`, `Sgrid.C117_psi`, `Sgrid.C117_psi_counterexample`, `Sgrid.C117_stationary`, `Sgrid.C118_kerr3d`, `Sgrid.C119_counterexample`, `Sgrid.C119_same`, `Sgrid.C11_accepted`, `Sgrid.C11_components`, `Sgrid.C11_lower`, `Sgrid.C120_constraints`, `Sgrid.C120_fields`, `Sgrid.C120_psi`, `Sgrid.C120_static`, `Sgrid.C121_Z`, `Sgrid.C121_curvature`, `Sgrid.C121_einstein`, `Sgrid.C121_gauge`, `Sgrid.C121_metric`, `Sgrid.C121_smooth`, `Sgrid.C121_theta`, `Sgrid.C122_constraints`, `Sgrid.C122_default`, `Sgrid.C122_evolution`, `Sgrid.C122_fields`, `Sgrid.C123_constraints`, `Sgrid.C123_evolution`, `Sgrid.C123_fields`, `Sgrid.C123_order`, `Sgrid.C123_sharp`, `Sgrid.C124_bound`, `Sgrid.C124_positive`, `Sgrid.C125_energy`, `Sgrid.C125_equation`, `Sgrid.C125_positive`, `Sgrid.C126_ellipsoidal`, `Sgrid.C126_ends`, `Sgrid.C126_spherical`, `Sgrid.C126_testwave`, `Sgrid.C127_energy`, `Sgrid.C127_integrand`, `Sgrid.C127_limit`, `Sgrid.C127_mass`, `Sgrid.C128_det`, `Sgrid.C128_inv`, `Sgrid.C128_trace`, `Sgrid.C129_kerr`, `Sgrid.C12_added`, `Sgrid.C12_components_counterexample`, `Sgrid.C12_components_first_run`, `Sgrid.C12_components_partial`, `Sgrid.C12_duplicate_list`, `Sgrid.C12_names`, `Sgrid.C12_stable`, `Sgrid.C130_constraint`, `Sgrid.C130_step`, `Sgrid.C130_wave`, `Sgrid.C131_kerr`, `Sgrid.C131_scheel_counterexample`, `Sgrid.C131_step`, `Sgrid.C131_wave`, `Sgrid.C132`, `Sgrid.C132_other`, `Sgrid.C132_smooth`, `Sgrid.C132_speeds`, `Sgrid.C133_CP`, `Sgrid.C133_dt_counterexample`, `Sgrid.C133_flat`, `Sgrid.C133_psi`, `Sgrid.C133_rates`, `Sgrid.C133_shift_counterexample`, `Sgrid.C134_both`, `Sgrid.C134_both_counterexample`, `Sgrid.C134_char`, `Sgrid.C134_flat`, `Sgrid.C134_inverse`, `Sgrid.C134_penalty`, `Sgrid.C134_speeds`, `Sgrid.C135`, `Sgrid.C135_exact`, `Sgrid.C135_rigid`, `Sgrid.C135_series`, `Sgrid.C135_source`, `Sgrid.C135_start`, `Sgrid.C136_chi`, `Sgrid.C136_erf`, `Sgrid.C136_linear`, `Sgrid.C136_psi`, `Sgrid.C136_psi_counterexample`, `Sgrid.C136_shell`, `Sgrid.C136_stars`, `Sgrid.C137_buonanno_v2cut`, `Sgrid.C137_buonanno_v6cut`, `Sgrid.C137_cut`, `Sgrid.C137_exchange`, `Sgrid.C137_exchange_radius`, `Sgrid.C137_kidder_v2cut`, `Sgrid.C137_kidder_v6cut`, `Sgrid.C137_lengths`, `Sgrid.C137_momentum`, `Sgrid.C137_nospin`, `Sgrid.C137_spin_orbit`, `Sgrid.C137_spin_spin`, `Sgrid.C137_spin_spin_bug`, `Sgrid.C138_P15Q`, `Sgrid.C138_damping`, `Sgrid.C138_exchange_counterexample`, `Sgrid.C138_exchange_partial`, `Sgrid.C138_orbit`, `Sgrid.C138_phase`, `Sgrid.C138_polarizations`, `Sgrid.C138_projection`, `Sgrid.C138_quadrupole`, `Sgrid.C138_renorm_counterexample`, `Sgrid.C138_triad`, `Sgrid.C138_unit`, `Sgrid.C139_formula`, `Sgrid.C139_orthonormal`, `Sgrid.C139_plm`, `Sgrid.C139_refused`, `Sgrid.C139_table`, `Sgrid.C13_vldrop_counterexample`, `Sgrid.C13_vlpush`, `Sgrid.C140_derivs_counterexample`, `Sgrid.C140_derivs_partial`, `Sgrid.C140_dphi`, `Sgrid.C140_dtheta`, `Sgrid.C140_dtheta_partial`, `Sgrid.C140_refused`, `Sgrid.C140_surface`, `Sgrid.C141_coeffs`, `Sgrid.C141_fac`, `Sgrid.C141_fac_counterexample`, `Sgrid.C141_integrals`, `Sgrid.C141_roundtrip`, `Sgrid.C141_rule`, `Sgrid.C141_sum`, `Sgrid.C142_convert`, `Sgrid.C142_empty_cube`, `Sgrid.C142_few_boxes`, `Sgrid.C142_full_cube`, `Sgrid.C142_sphere`, `Sgrid.C142_too_few_counterexample`, `Sgrid.C142_two_cubes`, `Sgrid.C142_two_spheres`, `Sgrid.C143_alone`, `Sgrid.C143_exactly_one`, `Sgrid.C143_flags`, `Sgrid.C143_stops`, `Sgrid.C144_bits`, `Sgrid.C144_decode`, `Sgrid.C144_names_back`, `Sgrid.C144_ofi`, `Sgrid.C144_outer`, `Sgrid.C145_box`, `Sgrid.C145_outer_cubic`, `Sgrid.C145_split`, `Sgrid.C146_found`, `Sgrid.C146_number`, `Sgrid.C146_outer`, `Sgrid.C146_pairs`, `Sgrid.C146_points`, `Sgrid.C147_dpythag`, `Sgrid.C147_dsvbksb`, `Sgrid.C147_golden`, `Sgrid.C147_golden_ends_partial`, `Sgrid.C147_golden_square_counterexample`, `Sgrid.C147_golden_zero_counterexample`, `Sgrid.C148_linmin`, `Sgrid.C148_pass`, `Sgrid.C148_powell`, `Sgrid.C149_maxits_counterexample`, `Sgrid.C149_report`, `Sgrid.C149_returns`, `Sgrid.C149_root`, `Sgrid.C149_sign_counterexample`, `Sgrid.C149_tolerance_counterexample`, `Sgrid.C14_counterexample`, `Sgrid.C14_vladd_partial`, `Sgrid.C14_vladdto_partial`, `Sgrid.C14_vlaverage_partial`, `Sgrid.C14_vlcopy_partial`, `Sgrid.C14_vlsetconstant`, `Sgrid.C14_vlsubtract_partial`, `Sgrid.C14_vlswap_partial`, `Sgrid.C150_bfunc_first`, `Sgrid.C150_bfunc_interval`, `Sgrid.C150_bfunc_second`, `Sgrid.C150_xr_first`, `Sgrid.C150_xr_map`, `Sgrid.C150_xr_second`, `Sgrid.C151_end`, `Sgrid.C151_ns0_first`, `Sgrid.C151_ns0_second`, `Sgrid.C151_ns1_first`, `Sgrid.C151_ns1_second`, `Sgrid.C151_ns3_first`, `Sgrid.C151_ns3_second`, `Sgrid.C151_side`, `Sgrid.C151_surface`, `Sgrid.C152_axis`, `Sgrid.C152_domain`, `Sgrid.C152_forward`, `Sgrid.C152_inverse`, `Sgrid.C152_rescaled`, `Sgrid.C153_if`, `Sgrid.C153_neighbors`, `Sgrid.C153_neighbors2`, `Sgrid.C153_sublist`, `Sgrid.C154_inertial`, `Sgrid.C154_orthonormal`, `Sgrid.C154_particle`, `Sgrid.C154_x`, `Sgrid.C154_y`, `Sgrid.C154_z`, `Sgrid.C155_DDPsi`, `Sgrid.C155_DPsi`, `Sgrid.C155_angles`, `Sgrid.C155_current`, `Sgrid.C155_near`, `Sgrid.C155_off_axis`, `Sgrid.C155_same_point`, `Sgrid.C155_source`, `Sgrid.C155_window`, `Sgrid.C156_WPsi_again`, `Sgrid.C156_charge`, `Sgrid.C156_far`, `Sgrid.C156_history`, `Sgrid.C156_inside`, `Sgrid.C156_parameters`, `Sgrid.C156_sequence`, `Sgrid.C156_stale_WPsi`, `Sgrid.C156_stale_parameters`, `Sgrid.C156_stale_singular`, `Sgrid.C156_wrong_radius`, `Sgrid.C157_derivative`, `Sgrid.C157_jacobian`, `Sgrid.C157_larger_derivative`, `Sgrid.C157_larger_steps`, `Sgrid.C157_linear`, `Sgrid.C158_count`, `Sgrid.C158_list`, `Sgrid.C159_step`, `Sgrid.C15_vladd_null`, `Sgrid.C160_nested`, `Sgrid.C161_terms`, `Sgrid.C162_counterexample`, `Sgrid.C162_extrema`, `Sgrid.C162_integrals`, `Sgrid.C162_sums`, `Sgrid.C162_zero_volume`, `Sgrid.C163_check_lost`, `Sgrid.C163_extremum`, `Sgrid.C163_jump`, `Sgrid.C163_outside`, `Sgrid.C164_overlap`, `Sgrid.C165_error`, `Sgrid.C165_solution`, `Sgrid.C165_step`, `Sgrid.C166_invertible`, `Sgrid.C166_perturbed`, `Sgrid.C166_status`, `Sgrid.C166_stops`, `Sgrid.C168_cast`, `Sgrid.C168_cast_counterexample`, `Sgrid.C168_matrix`, `Sgrid.C168_tensor`, `Sgrid.C168_vector`, `Sgrid.C169_depth`, `Sgrid.C169_history`, `Sgrid.C169_inner`, `Sgrid.C169_nested`, `Sgrid.C169_value`, `Sgrid.C169_wrapper`, `Sgrid.C16_history`, `Sgrid.C16_list_keeps_data`, `Sgrid.C16_new_zero`, `Sgrid.C170_error`, `Sgrid.C170_run`, `Sgrid.C170_step`, `Sgrid.C170_test`, `Sgrid.C171_chisq`, `Sgrid.C171_fit`, `Sgrid.C171_inside`, `Sgrid.C171_least`, `Sgrid.C171_matrix`, `Sgrid.C172_empty_counterexample`, `Sgrid.C172_list`, `Sgrid.C172_no_boxes_counterexample`, `Sgrid.C172_values`, `Sgrid.C173_output`, `Sgrid.C174_points`, `Sgrid.C174_rows`, `Sgrid.C175_line`, `Sgrid.C175_points`, `Sgrid.C17_boxes`, `Sgrid.C17_duplicate_partial`, `Sgrid.C17_history`, `Sgrid.C18_history`, `Sgrid.C18_remove`, `Sgrid.C18_removeNull`, `Sgrid.C18_step`, `Sgrid.C19_active`, `Sgrid.C19_indexOfIth`, `Sgrid.C19_visited`, `Sgrid.C20_droplist`, `Sgrid.C20_duplicate`, `Sgrid.C20_history`, `Sgrid.C20_index`, `Sgrid.C20_index_prop`, `Sgrid.C20_step`, `Sgrid.C21_bounds`, `Sgrid.C21_decode`, `Sgrid.C21_encode`, `Sgrid.C21_forinnerijk`, `Sgrid.C21_forinnerplaneN`, `Sgrid.C21_forplane`, `Sgrid.C21_forplaneN`, `Sgrid.C21_injective`, `Sgrid.C21_no_overflow`, `Sgrid.C21_nojump`, `Sgrid.C22_finit`, `Sgrid.C23_array_injective`, `Sgrid.C23_big`, `Sgrid.C23_doubles`, `Sgrid.C23_little`, `Sgrid.C23_write_big`, `Sgrid.C23_write_little`, `Sgrid.C24_atomic`, `Sgrid.C24_disk_full_counterexample`, `Sgrid.C24_many`, `Sgrid.C25_list_not_listed_counterexample`, `Sgrid.C25_roundtrip`, `Sgrid.C25_update`, `Sgrid.C26_evolve`, `Sgrid.C26_finaltime`, `Sgrid.C26_initialize`, `Sgrid.C27_change_counterexample`, `Sgrid.C27_evolve_rk`, `Sgrid.C27_generic`, `Sgrid.C27_picks`, `Sgrid.C27_tables`, `Sgrid.C27_unknown`, `Sgrid.C28_rk1`, `Sgrid.C28_rk2`, `Sgrid.C28_rk2a`, `Sgrid.C28_rk3`, `Sgrid.C28_rk3a`, `Sgrid.C28_rk3b`, `Sgrid.C28_rk4`, `Sgrid.C28_rk4a`, `Sgrid.C28_rk5`, `Sgrid.C28_rows_counterexample`, `Sgrid.C28_rows_partial`, `Sgrid.C29_counterexample`, `Sgrid.C29_evolve_rk`, `Sgrid.C29_formula`, `Sgrid.C29_lowstorage`, `Sgrid.C29_lowstorage_partial`, `Sgrid.C30_euler`, `Sgrid.C30_icn`, `Sgrid.C31_extrema`, `Sgrid.C31_extrema_coeffs`, `Sgrid.C31_rest`, `Sgrid.C32_zeros`, `Sgrid.C32_zeros_coeffs`, `Sgrid.C33_alt_counterexample`, `Sgrid.C33_alt_partial`, `Sgrid.C33_coeffs`, `Sgrid.C33_coeffs_of_eval`, `Sgrid.C33_eval`, `Sgrid.C33_inverse`, `Sgrid.C33_rest`, `Sgrid.C33_unique`, `Sgrid.C34_deriv`, `Sgrid.C35_antiderivative`, `Sgrid.C35_definite`, `Sgrid.C36_basis`, `Sgrid.C36_basis_sum`, `Sgrid.C36_eval`, `Sgrid.C37_deriv_partial`, `Sgrid.C37_even_counterexample`, `Sgrid.C37_grid`, `Sgrid.C37_odd`, `Sgrid.C38_extrema_grid`, `Sgrid.C38_fd`, `Sgrid.C38_fourier_counterexample`, `Sgrid.C38_grid3d`, `Sgrid.C38_interpolate`, `Sgrid.C38_std_grid`, `Sgrid.C38_weights_extrema`, `Sgrid.C38_weights_fourier_partial`, `Sgrid.C38_weights_zeros`, `Sgrid.C38_zeros_grid`, `Sgrid.C39_edges`, `Sgrid.C39_fd2`, `Sgrid.C39_filter`, `Sgrid.C39_filter3d`, `Sgrid.C39_stale_counterexample`, `Sgrid.C39_std_filter3d`, `Sgrid.C40_nonuniform`, `Sgrid.C40_nonuniform_counterexample`, `Sgrid.C40_nonuniform_partial`, `Sgrid.C40_onesided`, `Sgrid.C40_onesided_second`, `Sgrid.C40_periodic`, `Sgrid.C40_periodic_interior`, `Sgrid.C40_rest`, `Sgrid.C41_analysis`, `Sgrid.C41_deriv1`, `Sgrid.C41_deriv2`, `Sgrid.C41_derivMatrix`, `Sgrid.C41_filter1`, `Sgrid.C41_inplace_counterexample`, `Sgrid.C41_matrix`, `Sgrid.C41_order`, `Sgrid.C41_roundtrip`, `Sgrid.C41_std_roundtrip`, `Sgrid.C41_synthesis`, `Sgrid.C42_columns_counterexample`, `Sgrid.C42_component_counterexample`, `Sgrid.C42_square`, `Sgrid.C42_times_vector`, `Sgrid.C42_vector_times_partial`, `Sgrid.C43_race_counterexample`, `Sgrid.C43_times_vector`, `Sgrid.C43_vector_times_partial`, `Sgrid.C44_drop`, `Sgrid.C44_drop_runs`, `Sgrid.C44_openmp`, `Sgrid.C44_serial_counterexample`, `Sgrid.C44_serial_partial`, `Sgrid.C44_sorted`, `Sgrid.C45_array_list_array`, `Sgrid.C45_into`, `Sgrid.C45_list_array_list`, `Sgrid.C45_outof`, `Sgrid.C45_slots`, `Sgrid.C46_invertible`, `Sgrid.C46_perturbed`, `Sgrid.C46_returns`, `Sgrid.C46_singular`, `Sgrid.C47_bisect`, `Sgrid.C47_bisect_sign`, `Sgrid.C47_brak`, `Sgrid.C47_brent`, `Sgrid.C47_brent_sign`, `Sgrid.C47_zbrent`, `Sgrid.C48_iterations`, `Sgrid.C48_number`, `Sgrid.C48_once`, `Sgrid.C48_order`, `Sgrid.C49_box`, `Sgrid.C49_closest`, `Sgrid.C50_counterexample`, `Sgrid.C50_finite`, `Sgrid.C50_partial`, `Sgrid.C50_unit_matrix_counterexample`, `Sgrid.C51_cover`, `Sgrid.C51_disjoint`, `Sgrid.C51_inverse`, `Sgrid.C51_inverse_right`, `Sgrid.C51_ray`, `Sgrid.C51_rho`, `Sgrid.C51_status`, `Sgrid.C51_stretched`, `Sgrid.C51_surfaces`, `Sgrid.C52_arg`, `Sgrid.C52_arg_complex`, `Sgrid.C52_arg_plus`, `Sgrid.C52_arg_zero`, `Sgrid.C52_unique`, `Sgrid.C53_copy`, `Sgrid.C53_idempotent`, `Sgrid.C53_reset`, `Sgrid.C53_reset_var`, `Sgrid.C53_same_point`, `Sgrid.C53_same_point_code`, `Sgrid.C54_constraints`, `Sgrid.C54_frame`, `Sgrid.C54_idempotent`, `Sgrid.C55_power_of_two`, `Sgrid.C56_trim`, `Sgrid.C58_all_counterexample`, `Sgrid.C58_once`, `Sgrid.C58_two_blanks_counterexample`, `Sgrid.C58_words`, `Sgrid.C59_assign_from_other_partial`, `Sgrid.C59_other_calls_safe`, `Sgrid.C59_self_assignment_ub`, `Sgrid.C60_interval`, `Sgrid.C60_restart`, `Sgrid.C60_short_interval_counterexample`, `Sgrid.C60_times`, `Sgrid.C61_constant_flag_partial`, `Sgrid.C61_counterexample`, `Sgrid.C62_counterexample`, `Sgrid.C64_nnodes`, `Sgrid.C64_roundtrip`, `Sgrid.C65_complete`, `Sgrid.C65_copy_counterexample`, `Sgrid.C65_rename_safe`, `Sgrid.C65_run`, `Sgrid.C65_runs`, `Sgrid.C66_icn_counterexample`, `Sgrid.C67_lists_partial`, `Sgrid.C67_method_counterexample`, `Sgrid.C67_restart_counterexample`, `Sgrid.C68_definite`, `Sgrid.C68_int`, `Sgrid.C69_comp_first`, `Sgrid.C69_comp_second`, `Sgrid.C69_det`, `Sgrid.C69_first`, `Sgrid.C69_generic_exact`, `Sgrid.C69_generic_first`, `Sgrid.C69_generic_second`, `Sgrid.C69_inverse`, `Sgrid.C69_product`, `Sgrid.C69_second`, `Sgrid.C69_singular`, `Sgrid.C69_unstored_counterexample`, `Sgrid.C70_diffmatrix`, `Sgrid.C70_matTimesMat`, `Sgrid.C70_matrix`, `Sgrid.C70_opmatrix`, `Sgrid.C71_deriv3d`, `Sgrid.C71_extrema`, `Sgrid.C71_fourier`, `Sgrid.C71_zeros`, `Sgrid.C72_abort`, `Sgrid.C72_allDerivs`, `Sgrid.C72_order`, `Sgrid.C73_abort`, `Sgrid.C73_integral2d`, `Sgrid.C73_integral3d`, `Sgrid.C74_all_derivs`, `Sgrid.C74_analysis`, `Sgrid.C74_deriv1`, `Sgrid.C74_lines`, `Sgrid.C74_points`, `Sgrid.C74_points_serial`, `Sgrid.C74_synthesis`, `Sgrid.C75_cut_counterexample`, `Sgrid.C75_leading`, `Sgrid.C75_name_value_partial`, `Sgrid.C76_finit`, `Sgrid.C77_abssech`, `Sgrid.C77_abstanh`, `Sgrid.C77_argsech`, `Sgrid.C77_argtanh`, `Sgrid.C77_base_angle`, `Sgrid.C77_dAbstanhdx`, `Sgrid.C77_dAbstanhdy`, `Sgrid.C77_dArgPlusdx`, `Sgrid.C77_dArgPlusdy`, `Sgrid.C77_dArgdx`, `Sgrid.C77_dArgdy`, `Sgrid.C77_dArgtanhdx`, `Sgrid.C77_dArgtanhdy`, `Sgrid.C77_ddAbstanhdxdx`, `Sgrid.C77_ddAbstanhdxdy`, `Sgrid.C77_ddAbstanhdydy`, `Sgrid.C77_ddArgdxdx`, `Sgrid.C77_ddArgdxdy`, `Sgrid.C77_ddArgdydy`, `Sgrid.C77_ddArgtanhdxdx`, `Sgrid.C77_ddArgtanhdxdy`, `Sgrid.C77_ddArgtanhdydy`, `Sgrid.C77_tanh`, `Sgrid.C78_compact`, `Sgrid.C78_polar`, `Sgrid.C78_polarCE_counterexample`, `Sgrid.C78_polarCE_partial`, `Sgrid.C78_polar_axis`, `Sgrid.C78_spherical`, `Sgrid.C78_spherical2`, `Sgrid.C78_spherical3`, `Sgrid.C78_sphericalDF`, `Sgrid.C78_tan_stretch`, `Sgrid.C79_compact`, `Sgrid.C79_spherical`, `Sgrid.C79_spherical2`, `Sgrid.C79_spherical3`, `Sgrid.C79_sphericalDF`, `Sgrid.C79_tan_stretch`, `Sgrid.C80_derivs`, `Sgrid.C80_lam_of_r`, `Sgrid.C80_r`, `Sgrid.C80_sigma`, `Sgrid.C80_sigma_interp`, `Sgrid.C80_stretched`, `Sgrid.C81_angles`, `Sgrid.C81_dphi`, `Sgrid.C81_dphi_cos_sin`, `Sgrid.C81_dtheta`, `Sgrid.C81_pole_counterexample`, `Sgrid.C82_box_norm`, `Sgrid.C82_dot`, `Sgrid.C82_dot_arrays`, `Sgrid.C82_dot_linear`, `Sgrid.C82_dot_symm`, `Sgrid.C82_flat`, `Sgrid.C82_norm`, `Sgrid.C82_norm_scale`, `Sgrid.C82_norm_zero`, `Sgrid.C82_var_norm`, `Sgrid.C83_array_sub_array`, `Sgrid.C83_into`, `Sgrid.C83_outof`, `Sgrid.C83_partition`, `Sgrid.C83_point`, `Sgrid.C83_slots`, `Sgrid.C83_sub_array_sub`, `Sgrid.C84_box`, `Sgrid.C84_box_product`, `Sgrid.C84_subbox`, `Sgrid.C85_accuracy`, `Sgrid.C85_accuracy_counterexample`, `Sgrid.C85_bracket`, `Sgrid.C86_brent`, `Sgrid.C86_brent_inside`, `Sgrid.C86_minbrent_counterexample`, `Sgrid.C86_minbrent_partial`, `Sgrid.C86_minbrent_undefined`, `Sgrid.C87_min_brak`, `Sgrid.C88_integral`, `Sgrid.C88_polint`, `Sgrid.C88_romberg`, `Sgrid.C88_romberg_undefined`, `Sgrid.C88_simpson`, `Sgrid.C88_simpson_old`, `Sgrid.C88_simpson_old_counterexample`, `Sgrid.C88_trapez`, `Sgrid.C88_trapezit`, `Sgrid.C89_empty`, `Sgrid.C89_hnext`, `Sgrid.C89_negative_counterexample`, `Sgrid.C89_odeintegrate`, `Sgrid.C89_order`, `Sgrid.C89_rkck`, `Sgrid.C89_rkqs`, `Sgrid.C89_rkqs_ends`, `Sgrid.C89_rkqs_stepper`, `Sgrid.C89_start_counterexample`, `Sgrid.C90_01`, `Sgrid.C90_deriv`, `Sgrid.C90_inverted`, `Sgrid.C90_jump`, `Sgrid.C90_monotone`, `Sgrid.C90_range`, `Sgrid.C91_backtrack`, `Sgrid.C91_backtrack_counterexample`, `Sgrid.C91_convergence`, `Sgrid.C91_rhs_counterexample`, `Sgrid.C92_abort`, `Sgrid.C92_contraction`, `Sgrid.C92_convergence`, `Sgrid.C92_energy`, `Sgrid.C92_fixed`, `Sgrid.C92_solver`, `Sgrid.C92_step`, `Sgrid.C93_gsl_partial`, `Sgrid.C93_status_counterexample`, `Sgrid.C94_affine`, `Sgrid.C94_cubic`, `Sgrid.C94_descent`, `Sgrid.C94_jacobian`, `Sgrid.C94_jacobian_affine`, `Sgrid.C94_parabola`, `Sgrid.C94_report`, `Sgrid.C94_root_counterexample`, `Sgrid.C94_singular_counterexample`, `Sgrid.C94_step`, `Sgrid.C95_extrapolate`, `Sgrid.C95_uninitialised_counterexample`, `Sgrid.C95_vecs_partial`, `Sgrid.C95_within`, `Sgrid.C96_direction`, `Sgrid.C96_line`, `Sgrid.C96_report`, `Sgrid.C96_returns`, `Sgrid.C96_stall_counterexample`, `Sgrid.C97_columns_ascending`, `Sgrid.C97_columns_partial`, `Sgrid.C97_info`, `Sgrid.C97_lines`, `Sgrid.C97_negative_counterexample`, `Sgrid.C97_order_counterexample`, `Sgrid.C97_wrapper_openmp`, `Sgrid.C97_wrapper_serial_partial`, `Sgrid.C97_wrapper_sorted`, `Sgrid.C98_active`, `Sgrid.C98_allflags`, `Sgrid.C98_apply`, `Sgrid.C98_block_solve`, `Sgrid.C98_blocks`, `Sgrid.C98_diaginv`, `Sgrid.C98_flags`, `Sgrid.C98_jacobi`, `Sgrid.C98_ninactive`, `Sgrid.C98_precon`, `Sgrid.C98_singular_counterexample`, `Sgrid.C98_unset_counterexample`, `Sgrid.C99_S`, `Sgrid.C99_Sa`, `Sgrid.C99_Sab`, `Sgrid.C99_all_S`, `Sgrid.C99_all_Sa`, `Sgrid.C99_all_Sab`, `Sgrid.C99_calls`, `Sgrid.C99_chain`, `Sgrid.C99_exact`, `Sgrid.C99_first`, `Sgrid.C99_first_cartesian`, `Sgrid.C99_first_only`, `Sgrid.C99_names`, `Sgrid.C99_second`, `Sgrid.C99_second_other`, `Sgrid.C99_stored`, `Sgrid.FirstDerivs_inverse`, `Sgrid.FirstDerivs_unique`, `Sgrid.SecondDerivs_unique`

## Quot.sound, propext (104 theorems)

`Sgrid.C03_parse_layout`, `Sgrid.C05_leading_blank`, `Sgrid.C07_no_iteration`, `Sgrid.C08_arg_lines_count`, `Sgrid.C08_no_argsfile`, `Sgrid.C08_rank_lines`, `Sgrid.C09_after_restart`, `Sgrid.C09_all_bins`, `Sgrid.C09_run_order`, `Sgrid.C09_safe`, `Sgrid.C101_box`, `Sgrid.C101_initial`, `Sgrid.C101_lists`, `Sgrid.C101_restart_counterexample`, `Sgrid.C104_abort`, `Sgrid.C105_case_1d`, `Sgrid.C105_case_2d`, `Sgrid.C105_case_3d`, `Sgrid.C105_case_3d_deriv`, `Sgrid.C105_case_copy`, `Sgrid.C105_case_none`, `Sgrid.C105_case_touch`, `Sgrid.C105_no_box`, `Sgrid.C105_normal_abort`, `Sgrid.C105_onface`, `Sgrid.C105_only`, `Sgrid.C105_outward_normal`, `Sgrid.C105_partner_same`, `Sgrid.C116_step`, `Sgrid.C120_gauge`, `Sgrid.C121_step`, `Sgrid.C124_gauge`, `Sgrid.C125_step`, `Sgrid.C128_undo`, `Sgrid.C131_firstorder_counterexample`, `Sgrid.C133_other`, `Sgrid.C136_outer`, `Sgrid.C13_vldrop_partial`, `Sgrid.C13_vldropn`, `Sgrid.C13_vldropone`, `Sgrid.C13_vlduplicate`, `Sgrid.C13_vlpushvl`, `Sgrid.C13_vlpushvl_self`, `Sgrid.C143_returns`, `Sgrid.C144_overflow_counterexample`, `Sgrid.C145_outer_counterexample`, `Sgrid.C146_superset_counterexample`, `Sgrid.C158_all_fine`, `Sgrid.C158_goes_on`, `Sgrid.C158_output`, `Sgrid.C158_safe`, `Sgrid.C158_stops`, `Sgrid.C159_off`, `Sgrid.C15_vladd_zero_a`, `Sgrid.C15_vladd_zero_b`, `Sgrid.C160_exact`, `Sgrid.C161_off`, `Sgrid.C163_inside`, `Sgrid.C167_big_endian`, `Sgrid.C167_data`, `Sgrid.C167_points`, `Sgrid.C168_convert`, `Sgrid.C168_no_rows`, `Sgrid.C168_submatrix`, `Sgrid.C173_names`, `Sgrid.C17_visit_box`, `Sgrid.C17_visit_partial`, `Sgrid.C19_setAll`, `Sgrid.C19_setFlags`, `Sgrid.C20_mem`, `Sgrid.C20_union`, `Sgrid.C21_forallijk`, `Sgrid.C25_fscanline`, `Sgrid.C35_one_point`, `Sgrid.C42_add`, `Sgrid.C42_component_partial`, `Sgrid.C42_transpose`, `Sgrid.C53_consistent`, `Sgrid.C53_odd`, `Sgrid.C56_argv`, `Sgrid.C56_no_eq`, `Sgrid.C56_split`, `Sgrid.C57_max`, `Sgrid.C57_max2`, `Sgrid.C57_max3`, `Sgrid.C57_min`, `Sgrid.C57_min2`, `Sgrid.C57_min3`, `Sgrid.C60_di_zero_counterexample`, `Sgrid.C60_restart_any`, `Sgrid.C62_swap_partial`, `Sgrid.C69_transpose`, `Sgrid.C74_bodies`, `Sgrid.C75_no_delim`, `Sgrid.C75_null_counterexample`, `Sgrid.C91_full_step`, `Sgrid.C91_report`, `Sgrid.C91_rhs_partial`, `Sgrid.C98_freed`, `Sgrid.C99_sing`, `Sgrid.Spec.Averaged.unique`, `Sgrid.Spec.Trimmed.unique`, `Sgrid.Spec.Words.unique`, `Sgrid.beforeAfterEQ_split`

## propext (13 theorems)

`Sgrid.C08_arg_lines`, `Sgrid.C105_partner_none`, `Sgrid.C136_index`, `Sgrid.C146_offset_counterexample`, `Sgrid.C158_out_of_bounds`, `Sgrid.C158_wrong_value`, `Sgrid.C167_no_format`, `Sgrid.C16_twice`, `Sgrid.C17_duplicate_counterexample`, `Sgrid.C17_visit_counterexample`, `Sgrid.C63_droplist_self_counterexample`, `Sgrid.C63_pushlist_self_counterexample`, `Sgrid.C83_ranges`

## none (3 theorems)

`Sgrid.C143_foreign_counterexample`, `Sgrid.C145_faces`, `Sgrid.C160_iterated`
