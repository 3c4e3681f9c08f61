{
 "claims": [
  {
   "property": "C01",
   "status": "proved",
   "theorems": [
    "Sgrid.C01_param_map",
    "Sgrid.C01_hint_irrelevant",
    "Sgrid.C01_pi_words"
   ],
   "note": "refinement of the data base to a map, for all histories of calls"
  },
  {
   "property": "C02",
   "status": "proved",
   "theorems": [
    "Sgrid.C02_caches",
    "Sgrid.C02_bool_words"
   ],
   "note": ""
  },
  {
   "property": "C03",
   "status": "proved",
   "theorems": [
    "Sgrid.C03_parse_layout",
    "Sgrid.C03_parse_database",
    "Sgrid.C03_no_equal_sign"
   ],
   "note": "layout grammar in Spec/ParFile.lean, files below the reader's buffer size; C03_no_equal_sign records that a file without '=' makes the reader run off its buffer"
  },
  {
   "property": "C04",
   "status": "partial",
   "theorems": [
    "Sgrid.C04_getv_sound",
    "Sgrid.C04_getv_incomplete",
    "Sgrid.C04_getv_partial"
   ],
   "note": "false as stated (witness); holds if the word is not a proper suffix of another entry"
  },
  {
   "property": "C05",
   "status": "partial",
   "theorems": [
    "Sgrid.C05_nextEntry_partial",
    "Sgrid.C05_leading_blank"
   ],
   "note": "holds for lists without a leading blank; with one the entries are never exhausted (witness for all such lists)"
  },
  {
   "property": "C06",
   "status": "partial",
   "theorems": [
    "Sgrid.C06_appends_effect",
    "Sgrid.C06_appends_twice_counterexample",
    "Sgrid.C06_appends_once_partial"
   ],
   "note": "idempotence false as stated (witness), inherits the Getv defect; effect of one call proved in full"
  },
  {
   "property": "C07",
   "status": "partial",
   "theorems": [
    "Sgrid.C07_no_iteration",
    "Sgrid.C07_runs",
    "Sgrid.C07_runs_partial",
    "Sgrid.C07_counterexample"
   ],
   "note": "false for lists of different length (witness)"
  },
  {
   "property": "C08",
   "status": "proved",
   "theorems": [
    "Sgrid.C08_rank_lines",
    "Sgrid.C08_each_line_once",
    "Sgrid.C08_no_argsfile",
    "Sgrid.C08_arg_lines",
    "Sgrid.C08_arg_lines_count"
   ],
   "note": ""
  },
  {
   "property": "C09",
   "status": "proved",
   "theorems": [
    "Sgrid.C09_run_order",
    "Sgrid.C09_safe",
    "Sgrid.C09_after_restart",
    "Sgrid.C09_all_bins"
   ],
   "note": ""
  },
  {
   "property": "C10",
   "status": "partial",
   "theorems": [
    "Sgrid.C10_parity_partial",
    "Sgrid.C10_counterexample"
   ],
   "note": "false for the index type (ab)(ij) (witness), proved for all others; complete finite table of index strings lifted to all input strings"
  },
  {
   "property": "C100",
   "status": "proved",
   "theorems": [
    "Sgrid.C100_element",
    "Sgrid.C100_flat",
    "Sgrid.C100_surface",
    "Sgrid.C100_abort"
   ],
   "note": "Exact arithmetic. The function times the surface element must be in the span of the basis in each direction, as for C73."
  },
  {
   "property": "C101",
   "status": "partial",
   "theorems": [
    "Sgrid.C101_box",
    "Sgrid.C101_lists",
    "Sgrid.C101_nodup",
    "Sgrid.C101_calls",
    "Sgrid.C101_value",
    "Sgrid.C101_constant",
    "Sgrid.C101_simpleExcision",
    "Sgrid.C101_normalderiv",
    "Sgrid.C101_vonNeumann",
    "Sgrid.C101_radiative",
    "Sgrid.C101_set_boundary",
    "Sgrid.C101_analytic",
    "Sgrid.C101_initial",
    "Sgrid.C101_wave",
    "Sgrid.C101_wave_analytic",
    "Sgrid.C101_constant_counterexample",
    "Sgrid.C101_constant_icn",
    "Sgrid.C101_restart_counterexample"
   ],
   "note": "Exact arithmetic. False in the code: constant boundaries do not look at c, so that with Runge-Kutta methods the right hand side is the old variable and the boundary grows (C101_constant_counterexample); with icn and euler it stays constant (C101_constant_icn). After a restart at a time other than 0 radiative_analytic reads from a NULL pointer (C101_restart_counterexample). The normal derivative needs a list without repetitions and a derivative matrix whose corner is not zero."
  },
  {
   "property": "C102",
   "status": "partial",
   "theorems": [
    "Sgrid.C102_four1",
    "Sgrid.C102_realft",
    "Sgrid.C102_realft_back",
    "Sgrid.C102_cosft1",
    "Sgrid.C102_cosft2",
    "Sgrid.C102_four_coeffs",
    "Sgrid.C102_four_eval",
    "Sgrid.C102_four_int",
    "Sgrid.C102_extrema",
    "Sgrid.C102_zeros",
    "Sgrid.C102_chosen",
    "Sgrid.C102_two_points_counterexample",
    "Sgrid.C102_one_point_counterexample"
   ],
   "note": "Exact arithmetic, so that the recurrence for the sines and cosines is exact. FFTW3 is not modelled. False in the code: ChebExtrema with two points and Fourier or ChebZeros with one point pass the test in set_TransformType_flags_inbox, but the transforms need at least two intervals or points; they give wrong coefficients and write behind the array (C102_two_points_counterexample, C102_one_point_counterexample). For all other powers of two everything is proved."
  },
  {
   "property": "C103",
   "status": "partial",
   "theorems": [
    "Sgrid.C103_error",
    "Sgrid.C103_cartesian",
    "Sgrid.C103_X_of_x",
    "Sgrid.C103_Y_of_y",
    "Sgrid.C103_check_counterexample",
    "Sgrid.C103_recover",
    "Sgrid.C103_found",
    "Sgrid.C103_sing",
    "Sgrid.C103_ansorg",
    "Sgrid.C103_boxes",
    "Sgrid.C103_boxlist",
    "Sgrid.C103_X_boxes",
    "Sgrid.C103_X_boxlist",
    "Sgrid.C103_returns",
    "Sgrid.C103_round",
    "Sgrid.C103_nearest",
    "Sgrid.C103_inner",
    "Sgrid.C103_inplane",
    "Sgrid.C103_nearest_box",
    "Sgrid.C103_on_face",
    "Sgrid.C103_move",
    "Sgrid.C103_moved",
    "Sgrid.C103_find_index",
    "Sgrid.C103_find_ijk"
   ],
   "note": "Exact arithmetic. False in the code: X_of_x_forgiven_YZ and Y_of_y_forgiven_XZ return stat-check, which is not negative when Newton's method reports a failure with check=1 in its first pass or later; then b_X_of_x_forgiven_YZ accepts a point with the wrong x (C103_check_counterexample). XYZ_of_xyz also reports success where newton_linesearch ends with a tiny step and check=0 (see C94). The rest is proved."
  },
  {
   "property": "C104",
   "status": "proved",
   "theorems": [
    "Sgrid.C104_analysis",
    "Sgrid.C104_synthesis",
    "Sgrid.C104_abort",
    "Sgrid.C104_coeffs",
    "Sgrid.C104_eval",
    "Sgrid.C104_roundtrip",
    "Sgrid.C104_interpolate",
    "Sgrid.C104_agrees",
    "Sgrid.C104_line",
    "Sgrid.C104_line_inplane",
    "Sgrid.C104_exact",
    "Sgrid.C104_line_exact",
    "Sgrid.C104_agrees_std",
    "Sgrid.C104_var"
   ],
   "note": "Exact arithmetic. Indices of planes are not negative; all basis functions exist. If the variable has no memory in a box of grid 2, spec_interpolate_Var_from_grid2_to_grid1 uses whatever is in the temporary variable there; C104_var has the condition that it has memory."
  },
  {
   "property": "C105",
   "status": "partial",
   "theorems": [
    "Sgrid.C105_normal",
    "Sgrid.C105_normal_XYZ",
    "Sgrid.C105_normal_zero",
    "Sgrid.C105_normal_abort",
    "Sgrid.C105_outward",
    "Sgrid.C105_outward_XYZ",
    "Sgrid.C105_outward_normal",
    "Sgrid.C105_3d",
    "Sgrid.C105_3d_deriv",
    "Sgrid.C105_2d",
    "Sgrid.C105_2d_deriv",
    "Sgrid.C105_copy",
    "Sgrid.C105_copy_deriv",
    "Sgrid.C105_partner_same",
    "Sgrid.C105_partner_none",
    "Sgrid.C105_partner_touch",
    "Sgrid.C105_partner_missing",
    "Sgrid.C105_no_box",
    "Sgrid.C105_case_copy",
    "Sgrid.C105_case_touch",
    "Sgrid.C105_case_2d",
    "Sgrid.C105_case_1d",
    "Sgrid.C105_case_none",
    "Sgrid.C105_case_3d",
    "Sgrid.C105_case_3d_deriv",
    "Sgrid.C105_onface",
    "Sgrid.C105_only",
    "Sgrid.C105_box_only"
   ],
   "note": "Proved for copies, 2d and 3d interpolation, fields and normal derivatives. Partial because the code does not have the property for two equal coordinates (C105_case_1d: it stops), for normal derivatives on faces that do not touch (C105_case_3d_deriv: it stops after writing) and for points without partner (C105_partner_missing: index -1). 2d interpolation skips points out of range."
  },
  {
   "property": "C106",
   "status": "proved",
   "theorems": [
    "Sgrid.C106_det",
    "Sgrid.C106_metric",
    "Sgrid.C106_trace",
    "Sgrid.C106_traceless",
    "Sgrid.C106_curvature",
    "Sgrid.C106_density",
    "Sgrid.C106_roundtrip",
    "Sgrid.C106_roundtrip_back",
    "Sgrid.C106_gamma",
    "Sgrid.C106_gamma_christoffel",
    "Sgrid.C106_alpha_rhs",
    "Sgrid.C106_grid"
   ],
   "note": "Exact arithmetic, the constants 0.333... are 1/3. The loops over points are functions of the values at a point (all variables have different arrays); the Cartesian derivatives are arguments."
  },
  {
   "property": "C107",
   "status": "partial",
   "theorems": [
    "Sgrid.C107_idempotent",
    "Sgrid.C107_23X",
    "Sgrid.C107_23Xminus1",
    "Sgrid.C107_23XYZ",
    "Sgrid.C107_kill",
    "Sgrid.C107_phi",
    "Sgrid.C107_old",
    "Sgrid.C107_grid",
    "Sgrid.C107_std",
    "Sgrid.C107_modes",
    "Sgrid.C107_sin",
    "Sgrid.C107_coord",
    "Sgrid.C107_lastMode",
    "Sgrid.C107_region",
    "Sgrid.C107_unew",
    "Sgrid.C107_choose",
    "Sgrid.C107_lmshift",
    "Sgrid.C107_simple_counterexample"
   ],
   "note": "Exact arithmetic. The filter with spherical harmonics is an argument (ylm), see C108. False in the code: with BSSN_filter_type=simple, BSSN_ChooseAndApplyFilters filters BSSNvars and not the list that is passed; BSSN_evolve passes unew (C107_simple_counterexample). The elliptic region needs jf and kf not zero (division by zero in the code otherwise)."
  },
  {
   "property": "C108",
   "status": "proved",
   "theorems": [
    "Sgrid.C108_vec",
    "Sgrid.C108_reverse",
    "Sgrid.C108_weights",
    "Sgrid.C108_table",
    "Sgrid.C108_sampling",
    "Sgrid.C108_P_eval",
    "Sgrid.C108_unique",
    "Sgrid.C108_unique_weights",
    "Sgrid.C108_filter",
    "Sgrid.C108_keep",
    "Sgrid.C108_idempotent",
    "Sgrid.C108_grid"
   ],
   "note": "Exact arithmetic; PI = 3.14159265358979 and 0.707106781186547 in s2kit stand for pi and 1/sqrt(2). Boxes are those whose transforms are linear and inverse to each other (C107_std shows this for the bases of the code). Arrays from malloc start with arbitrary contents."
  },
  {
   "property": "C109",
   "status": "partial",
   "theorems": [
    "Sgrid.C109_line",
    "Sgrid.C109_sphere",
    "Sgrid.C109_at",
    "Sgrid.C109_volume",
    "Sgrid.C109_abort",
    "Sgrid.C109_counterexample"
   ],
   "note": "Proved for all numbers of points n2 >= 3 in direction 2 with n2 % 4 != 1. False in the code for n2 % 4 == 1: the loop n < N/2 leaves out the even mode n = (N-1)/2 (C109_counterexample for n2 = 5). For n2 < 3 the code reads coefficients of the next line."
  },
  {
   "property": "C11",
   "status": "proved",
   "theorems": [
    "Sgrid.C11_components",
    "Sgrid.C11_accepted",
    "Sgrid.C11_lower"
   ],
   "note": "complete finite table of index strings lifted to all input strings"
  },
  {
   "property": "C110",
   "status": "proved",
   "theorems": [
    "Sgrid.C110_fact",
    "Sgrid.C110_versions",
    "Sgrid.C110_symmetry",
    "Sgrid.C110_transpose",
    "Sgrid.C110_rotation",
    "Sgrid.C110_addition",
    "Sgrid.C110_zero",
    "Sgrid.C110_inverse",
    "Sgrid.C110_orthogonal",
    "Sgrid.C110_integral",
    "Sgrid.C110_orthonormal",
    "Sgrid.C110_small",
    "Sgrid.C110_PG_counterexample"
   ],
   "note": "The function Wigner_d_function_PG is not used by the code; it is not zero for l < |s| (C110_PG_counterexample)."
  },
  {
   "property": "C111",
   "status": "proved",
   "theorems": [
    "Sgrid.C111_number",
    "Sgrid.C111_sYlm",
    "Sgrid.C111_read",
    "Sgrid.C111_modes",
    "Sgrid.C111_times",
    "Sgrid.C111_run",
    "Sgrid.C111_abort"
   ],
   "note": "Real numbers. lmax is not negative. The data files are lists of pieces with a time and enough numbers; their header and the text of the output are not modelled. Files with NaN as a time are not modelled (the C loop does not end for them)."
  },
  {
   "property": "C112",
   "status": "proved",
   "theorems": [
    "Sgrid.C112_ham",
    "Sgrid.C112_mom",
    "Sgrid.C112_trK",
    "Sgrid.C112_metric",
    "Sgrid.C112_smooth"
   ],
   "note": "Field elements instead of doubles. The derivatives are given to the function (C71, C99 and others are about computing them). With rho but without S the code leaves out rho in dtrKdt; with S but without rho it reads from a null pointer."
  },
  {
   "property": "C113",
   "status": "partial",
   "theorems": [
    "Sgrid.C113_norm",
    "Sgrid.C113_counterexample"
   ],
   "note": "Proved without TermByTerm. With TermByTerm (the default) it is wrong: RB, codelKB and codelKC are declared symmetric in the script and are not, so that terms are lost; normham = 0 with ham = 4 and normmom = 0 with mom = -1 occur (C113_counterexample)."
  },
  {
   "property": "C114",
   "status": "proved",
   "theorems": [
    "Sgrid.C114_metric",
    "Sgrid.C114_curvature",
    "Sgrid.C114_trace",
    "Sgrid.C114_smooth"
   ],
   "note": "Field elements instead of doubles. The derivatives are given to the function (their computation in lines 656-703 is the subject of C71, C72, C99). Without the options forceKzero and densitizedLapse; with usegentlePhi the term with the Hamiltonian constraint is added on purpose, so it is assumed to be zero."
  },
  {
   "property": "C115",
   "status": "proved",
   "theorems": [
    "Sgrid.C115_gamma",
    "Sgrid.C115_det",
    "Sgrid.C115_tracefree"
   ],
   "note": "Field elements instead of doubles. Without the options forceKzero and densitizedLapse."
  },
  {
   "property": "C116",
   "status": "partial",
   "theorems": [
    "Sgrid.C116_step",
    "Sgrid.C116_det",
    "Sgrid.C116_tracefree",
    "Sgrid.C116_gzz",
    "Sgrid.C116_lapse",
    "Sgrid.C116_shift",
    "Sgrid.C116_density",
    "Sgrid.C116_counterexample"
   ],
   "note": "Proved except for recomputegzz: the code (and the script BSSN_rhs.m:250) computes 1 + (...)/(...) instead of (1 + ...)/(...), so that det g = g11 g22 - g12^2 instead of 1 (C116_gzz, C116_counterexample)."
  },
  {
   "property": "C117",
   "status": "partial",
   "theorems": [
    "Sgrid.C117_fields",
    "Sgrid.C117_constraints",
    "Sgrid.C117_stationary",
    "Sgrid.C117_psi",
    "Sgrid.C117_psi_counterexample"
   ],
   "note": "Real numbers instead of doubles. All but the derivatives of the conformal factor is proved for all masses and spins; the derivatives of psi = 1 + 2M/r are right without spin (C117_psi), but with spin the code takes x/r for the gradient of Kerr's radius r, so that dpsiopsi and ddpsiopsi are not the derivatives of psi (C117_psi_counterexample)."
  },
  {
   "property": "C118",
   "status": "proved",
   "theorems": [
    "Sgrid.C118_kerr3d"
   ],
   "note": "Real numbers instead of doubles."
  },
  {
   "property": "C119",
   "status": "partial",
   "theorems": [
    "Sgrid.C119_same",
    "Sgrid.C119_counterexample"
   ],
   "note": "Proved for unit mass or zero spin. Otherwise they do not agree: SingleBHKS takes the spin parameter as Kerr's a, Kerr3d takes a = S/M; for M = 2, S = 2 at (0,0,1) g_zz is 9/5 in one and 3 in the other."
  },
  {
   "property": "C12",
   "status": "partial",
   "theorems": [
    "Sgrid.C12_names",
    "Sgrid.C12_stable",
    "Sgrid.C12_components_partial",
    "Sgrid.C12_components_first_run",
    "Sgrid.C12_components_counterexample",
    "Sgrid.C12_added",
    "Sgrid.C12_duplicate_list"
   ],
   "note": "names, indices and stability proved for all histories; the tensor structure is false for AddDuplicate of incomplete tensors (witness) and proved otherwise"
  },
  {
   "property": "C120",
   "status": "proved",
   "theorems": [
    "Sgrid.C120_fields",
    "Sgrid.C120_constraints",
    "Sgrid.C120_static",
    "Sgrid.C120_psi",
    "Sgrid.C120_gauge"
   ],
   "note": "Real numbers instead of doubles."
  },
  {
   "property": "C121",
   "status": "proved",
   "theorems": [
    "Sgrid.C121_metric",
    "Sgrid.C121_curvature",
    "Sgrid.C121_theta",
    "Sgrid.C121_Z",
    "Sgrid.C121_einstein",
    "Sgrid.C121_gauge",
    "Sgrid.C121_step",
    "Sgrid.C121_smooth"
   ],
   "note": "Elements of a field instead of doubles; C121_smooth is the case of smooth functions on R^3. The derivatives are input. The code takes the metric as the physical one."
  },
  {
   "property": "C122",
   "status": "proved",
   "theorems": [
    "Sgrid.C122_fields",
    "Sgrid.C122_constraints",
    "Sgrid.C122_evolution",
    "Sgrid.C122_default"
   ],
   "note": "Real numbers instead of doubles. C122_default: with the default TestID_amplitude = 1 every box contains a point with g_xx = 0 and alpha = 0."
  },
  {
   "property": "C123",
   "status": "proved",
   "theorems": [
    "Sgrid.C123_fields",
    "Sgrid.C123_constraints",
    "Sgrid.C123_order",
    "Sgrid.C123_sharp",
    "Sgrid.C123_evolution"
   ],
   "note": "Real numbers instead of doubles."
  },
  {
   "property": "C124",
   "status": "proved",
   "theorems": [
    "Sgrid.C124_bound",
    "Sgrid.C124_positive",
    "Sgrid.C124_gauge"
   ],
   "note": "Real numbers instead of doubles; rand() is an arbitrary sequence between 0 and RAND_MAX."
  },
  {
   "property": "C125",
   "status": "proved",
   "theorems": [
    "Sgrid.C125_equation",
    "Sgrid.C125_energy",
    "Sgrid.C125_positive",
    "Sgrid.C125_step"
   ],
   "note": "Real numbers instead of doubles. The spatial derivatives are input; the calls of dissipation, boundary conditions and filters (lines 66-75) are not part of the model."
  },
  {
   "property": "C126",
   "status": "proved",
   "theorems": [
    "Sgrid.C126_spherical",
    "Sgrid.C126_ellipsoidal",
    "Sgrid.C126_testwave",
    "Sgrid.C126_ends"
   ],
   "note": "Real numbers instead of doubles."
  },
  {
   "property": "C127",
   "status": "proved",
   "theorems": [
    "Sgrid.C127_integrand",
    "Sgrid.C127_mass",
    "Sgrid.C127_limit",
    "Sgrid.C127_energy"
   ],
   "note": "Real numbers instead of doubles; the derivatives of the conformal metric are input. The integrand has det(gamma) where the surface element has its square root; the two agree at infinity, at a finite radius they do not."
  },
  {
   "property": "C128",
   "status": "proved",
   "theorems": [
    "Sgrid.C128_det",
    "Sgrid.C128_inv",
    "Sgrid.C128_trace",
    "Sgrid.C128_undo"
   ],
   "note": "Real numbers instead of doubles."
  },
  {
   "property": "C129",
   "status": "proved",
   "theorems": [
    "Sgrid.C129_kerr"
   ],
   "note": "Real numbers instead of doubles."
  },
  {
   "property": "C13",
   "status": "partial",
   "theorems": [
    "Sgrid.C13_vlpush",
    "Sgrid.C13_vlpushvl",
    "Sgrid.C13_vlpushvl_self",
    "Sgrid.C13_vldropone",
    "Sgrid.C13_vldrop_partial",
    "Sgrid.C13_vldrop_counterexample",
    "Sgrid.C13_vldropn",
    "Sgrid.C13_vlduplicate"
   ],
   "note": "vldrop with an index other than a first component drops foreign components (witness); vlpushvl(v,v) leaves uninitialised entries (proved)"
  },
  {
   "property": "C130",
   "status": "proved",
   "theorems": [
    "Sgrid.C130_constraint",
    "Sgrid.C130_wave",
    "Sgrid.C130_step"
   ],
   "note": "The derivatives are input; what follows the loop (filters, boundary conditions) is not part of the model."
  },
  {
   "property": "C131",
   "status": "partial",
   "theorems": [
    "Sgrid.C131_wave",
    "Sgrid.C131_kerr",
    "Sgrid.C131_step",
    "Sgrid.C131_scheel_counterexample",
    "Sgrid.C131_firstorder_counterexample"
   ],
   "note": "Proved for the default parameters, also that both functions solve the same equation on the background of Kerr. With ScheelsPi the function reads variables that are not set, and with 1stOrder_inSpace line 728 reads phix in place of phiz (startup does not use the function then)."
  },
  {
   "property": "C132",
   "status": "proved",
   "theorems": [
    "Sgrid.C132",
    "Sgrid.C132_smooth",
    "Sgrid.C132_other",
    "Sgrid.C132_speeds"
   ],
   "note": "Real numbers instead of doubles (C132_other and C132_speeds: any field). The part under if(0) is not modelled."
  },
  {
   "property": "C133",
   "status": "partial",
   "theorems": [
    "Sgrid.C133_CP",
    "Sgrid.C133_rates",
    "Sgrid.C133_other",
    "Sgrid.C133_psi",
    "Sgrid.C133_flat",
    "Sgrid.C133_shift_counterexample",
    "Sgrid.C133_dt_counterexample"
   ],
   "note": "Proved for dt = 0, the rate of psi with set_psi_Pi_phi_boundary except for the shift. Line 2570 has [i] where it should have [ijk], and with dt different from 0 lines 2615 and 2792 take new values for rates."
  },
  {
   "property": "C134",
   "status": "partial",
   "theorems": [
    "Sgrid.C134_speeds",
    "Sgrid.C134_flat",
    "Sgrid.C134_char",
    "Sgrid.C134_both",
    "Sgrid.C134_inverse",
    "Sgrid.C134_penalty",
    "Sgrid.C134_both_counterexample"
   ],
   "note": "Exact in the first and in the last box. In the boxes between the derivative of psi is computed once (line 1528) before both ends change, so that the new fields do not have the given characteristic variables."
  },
  {
   "property": "C135",
   "status": "proved",
   "theorems": [
    "Sgrid.C135",
    "Sgrid.C135_series",
    "Sgrid.C135_start",
    "Sgrid.C135_source",
    "Sgrid.C135_rigid",
    "Sgrid.C135_exact"
   ],
   "note": "Real numbers instead of doubles. Fourier transforms in direction 3 by hypothesis; the sources of DV_CircSchwSource are not modelled."
  },
  {
   "property": "C136",
   "status": "partial",
   "theorems": [
    "Sgrid.C136_linear",
    "Sgrid.C136_chi",
    "Sgrid.C136_outer",
    "Sgrid.C136_psi",
    "Sgrid.C136_psi_counterexample",
    "Sgrid.C136_index",
    "Sgrid.C136_erf",
    "Sgrid.C136_shell",
    "Sgrid.C136_stars"
   ],
   "note": "Real numbers instead of doubles. Partial because J_Poisson3 is not the derivative where Chi is not 1: Poisson3.c:419 has 2.0*lChi*Psizz instead of 2.0*Chi*lChi*Psizz; C136_psi is the exact difference."
  },
  {
   "property": "C137",
   "status": "proved",
   "theorems": [
    "Sgrid.C137_lengths",
    "Sgrid.C137_momentum",
    "Sgrid.C137_exchange",
    "Sgrid.C137_exchange_radius",
    "Sgrid.C137_kidder_v2cut",
    "Sgrid.C137_kidder_v6cut",
    "Sgrid.C137_buonanno_v2cut",
    "Sgrid.C137_buonanno_v6cut",
    "Sgrid.C137_cut",
    "Sgrid.C137_nospin",
    "Sgrid.C137_spin_orbit",
    "Sgrid.C137_spin_spin",
    "Sgrid.C137_spin_spin_bug"
   ],
   "note": "Real numbers instead of doubles, Euler's constant is any number. The terms of TaylorT4 that have no counterpart in the other equations are tested only by the exchange of the stars. C137_spin_spin_bug: TaylorT4_bug, which says so itself, has another coupling of the spins."
  },
  {
   "property": "C138",
   "status": "partial",
   "theorems": [
    "Sgrid.C138_triad",
    "Sgrid.C138_orbit",
    "Sgrid.C138_polarizations",
    "Sgrid.C138_projection",
    "Sgrid.C138_phase",
    "Sgrid.C138_quadrupole",
    "Sgrid.C138_damping",
    "Sgrid.C138_unit",
    "Sgrid.C138_P15Q",
    "Sgrid.C138_exchange_partial",
    "Sgrid.C138_exchange_counterexample",
    "Sgrid.C138_renorm_counterexample"
   ],
   "note": "Real numbers instead of doubles. Partial because the exchange of the stars changes the wave if PN_CircularOrbit_GWs_AmpOv3 is set and the masses differ: compute_GWs.c:383 lacks the factor NN_dot_n; C138_P15Q is the exact difference. Also lines 326-328 renormalise a vector in place with components already changed, which is right for unit vectors only."
  },
  {
   "property": "C139",
   "status": "proved",
   "theorems": [
    "Sgrid.C139_plm",
    "Sgrid.C139_refused",
    "Sgrid.C139_table",
    "Sgrid.C139_formula",
    "Sgrid.C139_orthonormal"
   ],
   "note": "Real numbers instead of doubles; after the last entry of a row the C code divides by zero, the result is not used. sin(theta) >= 0 is needed because P_l^m has the root of 1-x^2."
  },
  {
   "property": "C14",
   "status": "partial",
   "theorems": [
    "Sgrid.C14_vladd_partial",
    "Sgrid.C14_vladdto_partial",
    "Sgrid.C14_vlcopy_partial",
    "Sgrid.C14_vlswap_partial",
    "Sgrid.C14_vlaverage_partial",
    "Sgrid.C14_vlsubtract_partial",
    "Sgrid.C14_vlsetconstant",
    "Sgrid.C14_counterexample"
   ],
   "note": "Proved for all grids, lists and coefficients, including r=a and r=b, if no variable of an operand stands at an earlier place in the result list; for the remaining aliasing pattern the code reads already overwritten values (counterexample). vlsetconstant holds without restriction."
  },
  {
   "property": "C140",
   "status": "partial",
   "theorems": [
    "Sgrid.C140_surface",
    "Sgrid.C140_refused",
    "Sgrid.C140_dphi",
    "Sgrid.C140_dtheta",
    "Sgrid.C140_dtheta_partial",
    "Sgrid.C140_derivs_partial",
    "Sgrid.C140_derivs_counterexample"
   ],
   "note": "Real numbers instead of doubles. The sum and the derivative by phi are right. Partial because sin(theta) df/dtheta has a part with l = lmax+1 that is dropped, and the entries after the coefficients are read as coefficients with l = lmax+1; C140_dtheta is the exact difference. At A = B = 0 the derivatives are those at B = 1e-10 in all six domains."
  },
  {
   "property": "C141",
   "status": "partial",
   "theorems": [
    "Sgrid.C141_integrals",
    "Sgrid.C141_rule",
    "Sgrid.C141_fac",
    "Sgrid.C141_fac_counterexample",
    "Sgrid.C141_sum",
    "Sgrid.C141_coeffs",
    "Sgrid.C141_roundtrip"
   ],
   "note": "Real numbers instead of doubles. Partial because the factor is the element of solid angle except at A = B = 0 in the domains +-z, where it is 0 instead of 1. That the spectral integration is exact for products of harmonics is a hypothesis of C141_coeffs (it is not exactly true on a cubed sphere); C141_rule shows that spec_2dIntegral is a rule of the assumed form."
  },
  {
   "property": "C142",
   "status": "proved",
   "theorems": [
    "Sgrid.C142_convert",
    "Sgrid.C142_empty_cube",
    "Sgrid.C142_full_cube",
    "Sgrid.C142_two_cubes",
    "Sgrid.C142_sphere",
    "Sgrid.C142_two_spheres",
    "Sgrid.C142_few_boxes",
    "Sgrid.C142_too_few_counterexample"
   ],
   "note": "Real numbers instead of doubles, so that the decimal strings of the parameters are exact. Hypotheses: the inner cube lies in the sphere in the middle (3 din^2 < dmid^2) and so on; no surface was set before; interpolation in a plane of equal values gives this value. CI->useF is 0. C142_too_few_counterexample: convert_1box_to_cube reads grid->box[b0] before it tests b0."
  },
  {
   "property": "C143",
   "status": "proved",
   "theorems": [
    "Sgrid.C143_flags",
    "Sgrid.C143_exactly_one",
    "Sgrid.C143_alone",
    "Sgrid.C143_returns",
    "Sgrid.C143_stops",
    "Sgrid.C143_foreign_counterexample"
   ],
   "note": "Hypothesis: a face that is named by a face of box b has b as its other box. set_ofi_in_all_bfaces gives this (C144_names_back); without it the statement is wrong (C143_foreign_counterexample), because the code compares the number of the face but not the box."
  },
  {
   "property": "C144",
   "status": "proved",
   "theorems": [
    "Sgrid.C144_ofi",
    "Sgrid.C144_decode",
    "Sgrid.C144_bits",
    "Sgrid.C144_names_back",
    "Sgrid.C144_outer",
    "Sgrid.C144_overflow_counterexample"
   ],
   "note": "int has 32 bits. With more than 30 faces in a box 1<<(ofi+1) is undefined, so that the overflow is not marked as the comment says (C144_overflow_counterexample)."
  },
  {
   "property": "C145",
   "status": "proved",
   "theorems": [
    "Sgrid.C145_faces",
    "Sgrid.C145_split",
    "Sgrid.C145_box",
    "Sgrid.C145_outer_cubic",
    "Sgrid.C145_outer_counterexample"
   ],
   "note": "Whether a place is found in a box is an arbitrary function of box and point; the list of boundary faces is a list of records with the operations proved in C18. add_boxface_as_outerbound_bface takes the wrong plane if the numbers of points differ, but C145_box shows that it is never called."
  },
  {
   "property": "C146",
   "status": "proved",
   "theorems": [
    "Sgrid.C146_pairs",
    "Sgrid.C146_points",
    "Sgrid.C146_found",
    "Sgrid.C146_number",
    "Sgrid.C146_outer",
    "Sgrid.C146_offset_counterexample",
    "Sgrid.C146_superset_counterexample"
   ],
   "note": "The search for the nearest point in a plane is an arbitrary function. For b0 other than 0 the points are not compared (C146_offset_counterexample). If the second face has more points than the first, its other points are in no list (C146_superset_counterexample)."
  },
  {
   "property": "C147",
   "status": "partial",
   "theorems": [
    "Sgrid.C147_golden",
    "Sgrid.C147_golden_ends_partial",
    "Sgrid.C147_golden_zero_counterexample",
    "Sgrid.C147_golden_square_counterexample",
    "Sgrid.C147_dpythag",
    "Sgrid.C147_dsvbksb"
   ],
   "note": "Proved as stated for a bracket without 0. If the bottom is at 0 and tol < 1/2, golden never ends in exact arithmetic (C147_golden_zero_counterexample). The decomposition itself (dsvdcmp) is not modelled; C147_dsvbksb takes it as given."
  },
  {
   "property": "C148",
   "status": "proved",
   "theorems": [
    "Sgrid.C148_linmin",
    "Sgrid.C148_pass",
    "Sgrid.C148_powell"
   ],
   "note": "abort is nrerror in brent or powell, or a search in mnbrak that has not ended. func looks only at the entries 1..n; numbers are real."
  },
  {
   "property": "C149",
   "status": "proved",
   "theorems": [
    "Sgrid.C149_report",
    "Sgrid.C149_returns",
    "Sgrid.C149_root",
    "Sgrid.C149_tolerance_counterexample",
    "Sgrid.C149_sign_counterexample",
    "Sgrid.C149_maxits_counterexample"
   ],
   "note": "The linear solver is an arbitrary function. The header says that errors give negative values, but MAXITS passes without a root give MAXITS+1 (C149_maxits_counterexample). The tolerance for the linear solver is computed without fabs and is 0 if no entry is positive (C149_sign_counterexample)."
  },
  {
   "property": "C15",
   "status": "proved",
   "theorems": [
    "Sgrid.C15_vladd_zero_a",
    "Sgrid.C15_vladd_zero_b",
    "Sgrid.C15_vladd_null",
    "Sgrid.C14_vladd_partial",
    "Sgrid.C14_vladdto_partial"
   ],
   "note": "With a zero coefficient the outcome does not depend on the list that goes with it; NULL lists and lists without storage are covered."
  },
  {
   "property": "C150",
   "status": "proved",
   "theorems": [
    "Sgrid.C150_xr_first",
    "Sgrid.C150_xr_second",
    "Sgrid.C150_xr_map",
    "Sgrid.C150_bfunc_first",
    "Sgrid.C150_bfunc_second",
    "Sgrid.C150_bfunc_interval"
   ],
   "note": "Derivatives along arbitrary paths in real arithmetic. At X = R = 0 the code replaces X^2+R^2 by a small number; there is no derivative there."
  },
  {
   "property": "C151",
   "status": "proved",
   "theorems": [
    "Sgrid.C151_ns0_first",
    "Sgrid.C151_ns0_second",
    "Sgrid.C151_ns1_first",
    "Sgrid.C151_ns1_second",
    "Sgrid.C151_ns3_first",
    "Sgrid.C151_ns3_second",
    "Sgrid.C151_surface",
    "Sgrid.C151_end",
    "Sgrid.C151_side"
   ],
   "note": "The functions behind the sigma pointers are parameters; their derivatives are assumed to be right at the point. The tables of domain 1 and domain 2 are the same text and are modelled once. That sigma(1,phi) does not depend on phi is an assumption of the code."
  },
  {
   "property": "C152",
   "status": "proved",
   "theorems": [
    "Sgrid.C152_forward",
    "Sgrid.C152_domain",
    "Sgrid.C152_rescaled",
    "Sgrid.C152_inverse",
    "Sgrid.C152_axis"
   ],
   "note": "Puts C150 and C151 together by the composition and inversion rules of C69. That the image under the first step is not X = R = 0 and that the determinant is not zero are hypotheses. The wrapper functions that return single entries of the tables (lines 14-94, 205-771) were compared by a script and are not modelled."
  },
  {
   "property": "C153",
   "status": "proved",
   "theorems": [
    "Sgrid.C153_if",
    "Sgrid.C153_sublist",
    "Sgrid.C153_neighbors",
    "Sgrid.C153_neighbors2"
   ],
   "note": "Built on the model of the list container (C20) with its reallocations. The list that is read and the list that grows are different objects; the numbers of the neighbours of the box must be numbers of boxes of the grid. bladd_neighbors_of_neighbors appends also boxes that are already in bl."
  },
  {
   "property": "C154",
   "status": "proved",
   "theorems": [
    "Sgrid.C154_x",
    "Sgrid.C154_y",
    "Sgrid.C154_z",
    "Sgrid.C154_particle",
    "Sgrid.C154_orthonormal",
    "Sgrid.C154_inertial"
   ],
   "note": "The formulas of the model were taken from the text of THZ.c by a script. The coordinate t has no tables in the code and is left out. The terms of third and fourth order in x, y, z are not determined by orthonormality; for them only the tables of derivatives are proved."
  },
  {
   "property": "C155",
   "status": "proved",
   "theorems": [
    "Sgrid.C155_DPsi",
    "Sgrid.C155_DDPsi",
    "Sgrid.C155_window",
    "Sgrid.C155_source",
    "Sgrid.C155_off_axis",
    "Sgrid.C155_same_point",
    "Sgrid.C155_near",
    "Sgrid.C155_angles",
    "Sgrid.C155_current"
   ],
   "note": "Pi of the code is taken as \u03c0. The sums over i and j are sums of real numbers. The functions r2rstar and rstar2r of Schwarzschild.c are not called and not modelled."
  },
  {
   "property": "C156",
   "status": "partial",
   "theorems": [
    "Sgrid.C156_history",
    "Sgrid.C156_sequence",
    "Sgrid.C156_parameters",
    "Sgrid.C156_far",
    "Sgrid.C156_charge",
    "Sgrid.C156_wrong_radius",
    "Sgrid.C156_inside",
    "Sgrid.C156_stale_singular",
    "Sgrid.C156_stale_WPsi",
    "Sgrid.C156_WPsi_again",
    "Sgrid.C156_stale_parameters"
   ],
   "note": "Proved: calls of eval_source are right after any sequence of such calls with the same parameters, if different points differ by more than the tolerance; the orbit is right for M = 1, and far enough out for M >= 1. The full statement is false: C156_wrong_radius (R = 10 M*M instead of 10 M), C156_inside (an orbit inside the hole is accepted for M = 1/10), C156_charge (the charge is not used), C156_stale_singular and C156_stale_WPsi (old values are used), C156_stale_parameters (a change of parameters is not noticed at the point of the last call)."
  },
  {
   "property": "C157",
   "status": "proved",
   "theorems": [
    "Sgrid.C157_jacobian",
    "Sgrid.C157_derivative",
    "Sgrid.C157_linear",
    "Sgrid.C157_larger_steps",
    "Sgrid.C157_larger_derivative"
   ],
   "note": "The function that is called does not change x. In fd_jacobianP the step may grow to the size of the coordinate itself."
  },
  {
   "property": "C158",
   "status": "partial",
   "theorems": [
    "Sgrid.C158_count",
    "Sgrid.C158_list",
    "Sgrid.C158_safe",
    "Sgrid.C158_all_fine",
    "Sgrid.C158_out_of_bounds",
    "Sgrid.C158_wrong_value",
    "Sgrid.C158_stops",
    "Sgrid.C158_goes_on",
    "Sgrid.C158_output"
   ],
   "note": "Proved: the number is right whenever the function returns; it returns if no box has fewer points than a box before it, or if nothing is bad. Without this it is false: C158_out_of_bounds. C158_wrong_value: the message shows a value of the wrong box. C158_stops excludes checkpoint=restart, which may change the final time. The last pass still writes output, C158_output. The test of one value is a parameter here; finit is C76."
  },
  {
   "property": "C159",
   "status": "proved",
   "theorems": [
    "Sgrid.C159_step",
    "Sgrid.C159_off"
   ],
   "note": "Setd is taken to store the number itself. The copies of n1, min1, ... into the parameters of the boxes are not modelled."
  },
  {
   "property": "C16",
   "status": "proved",
   "theorems": [
    "Sgrid.C16_history",
    "Sgrid.C16_new_zero",
    "Sgrid.C16_twice",
    "Sgrid.C16_list_keeps_data"
   ],
   "note": "One grid whose boxes have at least one point; the per-box tables never shrink (so it is at every call in the code)."
  },
  {
   "property": "C160",
   "status": "proved",
   "theorems": [
    "Sgrid.C160_iterated",
    "Sgrid.C160_exact",
    "Sgrid.C160_nested"
   ],
   "note": "The integrator is a tree of questions to the function, so that it may choose its points by the values it gets. The integrand must not call integral3D itself: C160_nested, where the result is 1/8 instead of 1."
  },
  {
   "property": "C161",
   "status": "proved",
   "theorems": [
    "Sgrid.C161_terms",
    "Sgrid.C161_off"
   ],
   "note": "The derivative operators are parameters; the temporary variables are different from each other and from the variables in the lists."
  },
  {
   "property": "C162",
   "status": "partial",
   "theorems": [
    "Sgrid.C162_extrema",
    "Sgrid.C162_integrals",
    "Sgrid.C162_zero_volume",
    "Sgrid.C162_sums",
    "Sgrid.C162_counterexample"
   ],
   "note": "Proved for volume integrals (any positive linear functional), and for maximum and minimum in all cases. With 0doutput_normtype other than integral the statement is false (C162_counterexample): C162_sums says what is written instead, mean and meanAbs are both the root mean square, and rms is the fourth root of the mean fourth power."
  },
  {
   "property": "C163",
   "status": "proved",
   "theorems": [
    "Sgrid.C163_inside",
    "Sgrid.C163_outside",
    "Sgrid.C163_extremum",
    "Sgrid.C163_check_lost",
    "Sgrid.C163_jump"
   ],
   "note": "The Newton solver is a parameter that returns a point and two numbers. C163_check_lost: that the solver got stuck is printed, but is not in the result. C163_jump: the function given to the solver jumps at the sides of the box. The search along a line (box_extremum_of_F_in_dir) is not modelled."
  },
  {
   "property": "C164",
   "status": "proved",
   "theorems": [
    "Sgrid.C164_overlap"
   ],
   "note": "Setd is taken to store the number itself."
  },
  {
   "property": "C165",
   "status": "proved",
   "theorems": [
    "Sgrid.C165_solution",
    "Sgrid.C165_step",
    "Sgrid.C165_error"
   ],
   "note": "The derivatives of cart_partials are parameters. The values on the last surface are set to zero at the start as well, so the error there is not zero."
  },
  {
   "property": "C166",
   "status": "proved",
   "theorems": [
    "Sgrid.C166_stops",
    "Sgrid.C166_perturbed",
    "Sgrid.C166_invertible",
    "Sgrid.C166_status"
   ],
   "note": "The proofs compare the loops with those of lu.c (C46). Spec.matrix and Spec.fromZero turn the arrays with indices from 1 into Mathlib's matrices."
  },
  {
   "property": "C167",
   "status": "partial",
   "theorems": [
    "Sgrid.C167_data",
    "Sgrid.C167_points",
    "Sgrid.C167_big_endian",
    "Sgrid.C167_no_format"
   ],
   "note": "Holds for variables on all machines, and for points except binary floats on a big endian machine: there the code declares the floats as doubles and writes the first halves of them (C167_big_endian). Binary without double or float stops on little endian machines and silently writes nothing on others (C167_no_format)."
  },
  {
   "property": "C168",
   "status": "proved",
   "theorems": [
    "Sgrid.C168_vector",
    "Sgrid.C168_matrix",
    "Sgrid.C168_submatrix",
    "Sgrid.C168_convert",
    "Sgrid.C168_tensor",
    "Sgrid.C168_cast",
    "Sgrid.C168_cast_counterexample",
    "Sgrid.C168_no_rows"
   ],
   "note": "The model allows pointers outside their block as long as they are not used, which C leaves undefined. A matrix without rows is written to outside its block (C168_no_rows), and the casts fail for matrices with more columns (C168_cast_counterexample); both are excluded in the statement."
  },
  {
   "property": "C169",
   "status": "partial",
   "theorems": [
    "Sgrid.C169_wrapper",
    "Sgrid.C169_nested",
    "Sgrid.C169_inner",
    "Sgrid.C169_history",
    "Sgrid.C169_value",
    "Sgrid.C169_depth"
   ],
   "note": "All but the last sentence is proved. A solver used as preconditioner also depends on what is left in vlx (C169_inner), with a counterexample to the last sentence in C169_history. The wrappers for QMR, BiCG and SOR are not modelled."
  },
  {
   "property": "C17",
   "status": "partial",
   "theorems": [
    "Sgrid.C17_history",
    "Sgrid.C17_boxes",
    "Sgrid.C17_visit_box",
    "Sgrid.C17_visit_partial",
    "Sgrid.C17_visit_counterexample",
    "Sgrid.C17_duplicate_partial",
    "Sgrid.C17_duplicate_counterexample"
   ],
   "note": "Histories are proved in full. The loop macro reads point[b][0] in boxes without points and DuplicatePointList writes past the end of the box list if it has more than two boxes (counterexamples); proved otherwise."
  },
  {
   "property": "C170",
   "status": "proved",
   "theorems": [
    "Sgrid.C170_step",
    "Sgrid.C170_run",
    "Sgrid.C170_error",
    "Sgrid.C170_test"
   ],
   "note": "In exact arithmetic. The parameter evolution_method_order is a natural number here."
  },
  {
   "property": "C171",
   "status": "proved",
   "theorems": [
    "Sgrid.C171_matrix",
    "Sgrid.C171_inside",
    "Sgrid.C171_chisq",
    "Sgrid.C171_fit",
    "Sgrid.C171_least"
   ],
   "note": "In exact arithmetic. dsvdcmp is not modelled; that its result is a decomposition is a hypothesis."
  },
  {
   "property": "C172",
   "status": "partial",
   "theorems": [
    "Sgrid.C172_list",
    "Sgrid.C172_values",
    "Sgrid.C172_no_boxes_counterexample",
    "Sgrid.C172_empty_counterexample"
   ],
   "note": "Proved for 1 to 10000 boxes and lists that are not empty and do not begin with a blank. Without boxes the terminating zero is written behind the buffer, and with an empty list the program stops. More than 10000 boxes are not treated. That all names are in both data bases is a hypothesis; both have the same npdb."
  },
  {
   "property": "C173",
   "status": "proved",
   "theorems": [
    "Sgrid.C173_output",
    "Sgrid.C173_names"
   ],
   "note": "The nine parameters have to exist before and after write_grid. Values are compared after translation of words like pi, as every stored value is (C01). Names have no blanks."
  },
  {
   "property": "C174",
   "status": "proved",
   "theorems": [
    "Sgrid.C174_rows",
    "Sgrid.C174_points"
   ],
   "note": "Only which points are written and in which order; the numbers in a line and the first line are not modelled. For another direction than 1, 2 or 3 nothing is said."
  },
  {
   "property": "C175",
   "status": "proved",
   "theorems": [
    "Sgrid.C175_line",
    "Sgrid.C175_points"
   ],
   "note": "Only which points are written and in which order; the numbers in a line and the first line are not modelled. The search for the line is C49. For another direction than 1, 2 or 3 nothing is said."
  },
  {
   "property": "C18",
   "status": "proved",
   "theorems": [
    "Sgrid.C18_history",
    "Sgrid.C18_step",
    "Sgrid.C18_remove",
    "Sgrid.C18_removeNull"
   ],
   "note": ""
  },
  {
   "property": "C19",
   "status": "proved",
   "theorems": [
    "Sgrid.C19_visited",
    "Sgrid.C19_setFlags",
    "Sgrid.C19_setAll",
    "Sgrid.C19_indexOfIth",
    "Sgrid.C19_active"
   ],
   "note": ""
  },
  {
   "property": "C20",
   "status": "proved",
   "theorems": [
    "Sgrid.C20_mem",
    "Sgrid.C20_index",
    "Sgrid.C20_index_prop",
    "Sgrid.C20_duplicate",
    "Sgrid.C20_step",
    "Sgrid.C20_history",
    "Sgrid.C20_union",
    "Sgrid.C20_droplist"
   ],
   "note": "Two list arguments are different objects; see C63 for one object passed twice."
  },
  {
   "property": "C21",
   "status": "proved",
   "theorems": [
    "Sgrid.C21_bounds",
    "Sgrid.C21_decode",
    "Sgrid.C21_encode",
    "Sgrid.C21_injective",
    "Sgrid.C21_no_overflow",
    "Sgrid.C21_forallijk",
    "Sgrid.C21_forinnerijk",
    "Sgrid.C21_forplane",
    "Sgrid.C21_forplaneN",
    "Sgrid.C21_forinnerplaneN",
    "Sgrid.C21_nojump"
   ],
   "note": ""
  },
  {
   "property": "C22",
   "status": "proved",
   "theorems": [
    "Sgrid.C22_finit"
   ],
   "note": ""
  },
  {
   "property": "C23",
   "status": "proved",
   "theorems": [
    "Sgrid.C23_write_little",
    "Sgrid.C23_write_big",
    "Sgrid.C23_little",
    "Sgrid.C23_big",
    "Sgrid.C23_doubles",
    "Sgrid.C23_array_injective"
   ],
   "note": "Item size not 0; writing to the disk succeeds."
  },
  {
   "property": "C24",
   "status": "proved",
   "theorems": [
    "Sgrid.C24_atomic",
    "Sgrid.C24_many",
    "Sgrid.C24_disk_full_counterexample"
   ],
   "note": "The program may die between any two file operations. Nobody looks at the results of fprintf, fwrite and fclose, so a full disk is not noticed (counterexample, outside the statement)."
  },
  {
   "property": "C25",
   "status": "partial",
   "theorems": [
    "Sgrid.C25_roundtrip",
    "Sgrid.C25_update",
    "Sgrid.C25_list_not_listed_counterexample",
    "Sgrid.C25_fscanline"
   ],
   "note": "Proved for checkpoint files if the list of parameters not to be read names itself (it does by default); otherwise the list is overwritten during the reading (counterexample). Values without newline and NUL, lines below the buffer size."
  },
  {
   "property": "C26",
   "status": "proved",
   "theorems": [
    "Sgrid.C26_evolve",
    "Sgrid.C26_initialize",
    "Sgrid.C26_finaltime"
   ],
   "note": "The functions in the bins do not change iteration, time and the limits."
  },
  {
   "property": "C27",
   "status": "proved",
   "theorems": [
    "Sgrid.C27_generic",
    "Sgrid.C27_evolve_rk",
    "Sgrid.C27_picks",
    "Sgrid.C27_unknown",
    "Sgrid.C27_tables",
    "Sgrid.C27_change_counterexample"
   ],
   "note": "For every explicit table, every right hand side and algebraic conditions, every grid and step size; also which table is chosen and that six stage lists suffice. The counterexample shows that the method must not change between two steps."
  },
  {
   "property": "C28",
   "status": "partial",
   "theorems": [
    "Sgrid.C28_rk1",
    "Sgrid.C28_rk2",
    "Sgrid.C28_rk2a",
    "Sgrid.C28_rk3",
    "Sgrid.C28_rk3a",
    "Sgrid.C28_rk3b",
    "Sgrid.C28_rk4",
    "Sgrid.C28_rk4a",
    "Sgrid.C28_rk5",
    "Sgrid.C28_rows_partial",
    "Sgrid.C28_rows_counterexample"
   ],
   "note": "All order conditions for all rooted trees up to the order, and failure of the next order, for each table. The stored c arrays (only printed) are the row sums for five tables and wrong for rk1, rk2, rk4a, rk5. Butcher's theorem that the conditions imply the order of convergence is not proved."
  },
  {
   "property": "C29",
   "status": "partial",
   "theorems": [
    "Sgrid.C29_formula",
    "Sgrid.C29_evolve_rk",
    "Sgrid.C29_lowstorage",
    "Sgrid.C29_lowstorage_partial",
    "Sgrid.C29_counterexample"
   ],
   "note": "Equal to the generic integrator with the rk4 table for every right hand side if there are no algebraic conditions, or if the old state satisfies them; otherwise the increments are added to a different field (counterexample)."
  },
  {
   "property": "C30",
   "status": "proved",
   "theorems": [
    "Sgrid.C30_icn",
    "Sgrid.C30_euler"
   ],
   "note": "With algebraic conditions and all other lists; the time at which the right hand side is evaluated is part of the statement, see C66."
  },
  {
   "property": "C31",
   "status": "proved",
   "theorems": [
    "Sgrid.C31_extrema",
    "Sgrid.C31_extrema_coeffs",
    "Sgrid.C31_rest"
   ],
   "note": "Over the reals; at least two points (with one point the code divides by zero)."
  },
  {
   "property": "C32",
   "status": "proved",
   "theorems": [
    "Sgrid.C32_zeros",
    "Sgrid.C32_zeros_coeffs",
    "Sgrid.C31_rest"
   ],
   "note": "Over the reals."
  },
  {
   "property": "C33",
   "status": "partial",
   "theorems": [
    "Sgrid.C33_inverse",
    "Sgrid.C33_unique",
    "Sgrid.C33_coeffs_of_eval",
    "Sgrid.C33_coeffs",
    "Sgrid.C33_rest",
    "Sgrid.C33_eval",
    "Sgrid.C33_alt_partial",
    "Sgrid.C33_alt_counterexample"
   ],
   "note": "Holds for four_coeffs/four_eval with every number of points. The pair four_coeffs_alt/four_eval_alt loses the highest frequency for even numbers of points."
  },
  {
   "property": "C34",
   "status": "proved",
   "theorems": [
    "Sgrid.C34_deriv"
   ],
   "note": ""
  },
  {
   "property": "C35",
   "status": "proved",
   "theorems": [
    "Sgrid.C35_antiderivative",
    "Sgrid.C35_definite",
    "Sgrid.C35_one_point"
   ],
   "note": "cheb_int is for series whose highest coefficient is zero, as the property says; the constant is such that the antiderivative vanishes at b."
  },
  {
   "property": "C36",
   "status": "proved",
   "theorems": [
    "Sgrid.C36_eval",
    "Sgrid.C36_basis_sum",
    "Sgrid.C36_basis"
   ],
   "note": "cheb_basisfunc is replaced by its value at the end points where dequal says so; the error bound is part of the statement."
  },
  {
   "property": "C37",
   "status": "partial",
   "theorems": [
    "Sgrid.C37_deriv_partial",
    "Sgrid.C37_odd",
    "Sgrid.C37_grid",
    "Sgrid.C37_even_counterexample"
   ],
   "note": "Exact for odd numbers of points and at the grid points; the highest frequency of an even number of points has derivative zero."
  },
  {
   "property": "C38",
   "status": "partial",
   "theorems": [
    "Sgrid.C38_extrema_grid",
    "Sgrid.C38_zeros_grid",
    "Sgrid.C38_weights_extrema",
    "Sgrid.C38_weights_zeros",
    "Sgrid.C38_fd",
    "Sgrid.C38_weights_fourier_partial",
    "Sgrid.C38_fourier_counterexample",
    "Sgrid.C38_grid3d",
    "Sgrid.C38_std_grid",
    "Sgrid.C38_interpolate"
   ],
   "note": "Proved for the triple sum of spec_interpolate in boxes of Chebyshev directions with at most 10000 points and Fourier directions that start at 0, and for finite-difference directions with increasing points on one line. In Fourier directions the basis functions use X instead of X-a, so interpolation is wrong if the interval does not start at a multiple of its length."
  },
  {
   "property": "C39",
   "status": "partial",
   "theorems": [
    "Sgrid.C39_filter",
    "Sgrid.C39_edges",
    "Sgrid.C39_stale_counterexample",
    "Sgrid.C39_fd2",
    "Sgrid.C39_filter3d",
    "Sgrid.C39_std_filter3d"
   ],
   "note": "Holds for the spectral bases when 1 <= filt <= n, on lines and for spec_filter3d in boxes. Fails for filt > n (writes in front of the array), for a second call with filt=0 (old off-diagonal entries stay) and for the finite-difference bases (their filter does nothing)."
  },
  {
   "property": "C40",
   "status": "partial",
   "theorems": [
    "Sgrid.C40_onesided",
    "Sgrid.C40_onesided_second",
    "Sgrid.C40_periodic",
    "Sgrid.C40_periodic_interior",
    "Sgrid.C40_nonuniform",
    "Sgrid.C40_nonuniform_partial",
    "Sgrid.C40_nonuniform_counterexample",
    "Sgrid.C40_rest"
   ],
   "note": "The uniform stencils are exact on quadratics. The centred stencil on non-uniform points is exact on linear functions only, as the counterexample shows."
  },
  {
   "property": "C41",
   "status": "partial",
   "theorems": [
    "Sgrid.C41_analysis",
    "Sgrid.C41_synthesis",
    "Sgrid.C41_matrix",
    "Sgrid.C41_deriv1",
    "Sgrid.C41_deriv2",
    "Sgrid.C41_derivMatrix",
    "Sgrid.C41_filter1",
    "Sgrid.C41_order",
    "Sgrid.C41_roundtrip",
    "Sgrid.C41_std_roundtrip",
    "Sgrid.C41_inplace_counterexample"
   ],
   "note": "Every routine applies its line operator to all lines and changes nothing else, for all box sizes. The exception is spec_Deriv1 in direction 1 with matrices and output = input, which is wrong (counterexample)."
  },
  {
   "property": "C42",
   "status": "partial",
   "theorems": [
    "Sgrid.C42_add",
    "Sgrid.C42_times_vector",
    "Sgrid.C42_vector_times_partial",
    "Sgrid.C42_transpose",
    "Sgrid.C42_square",
    "Sgrid.C42_columns_counterexample",
    "Sgrid.C42_component_partial",
    "Sgrid.C42_component_counterexample"
   ],
   "note": "vector_times_SparseMatrixLines only clears as many entries of the result as the matrix has lines, so that a matrix with more columns leaves old values in the sums (C42_columns_counterexample); equal to the dense product otherwise. GetSparseVectorComponent returns the first entry of a repeated position instead of the sum."
  },
  {
   "property": "C43",
   "status": "partial",
   "theorems": [
    "Sgrid.C43_times_vector",
    "Sgrid.C43_vector_times_partial",
    "Sgrid.C43_race_counterexample"
   ],
   "note": "SparseMatrixLines_times_vector is free of races. The transposed products add to shared entries without protection and lose updates (C43_race_counterexample); they are right when no two lines share a column."
  },
  {
   "property": "C44",
   "status": "partial",
   "theorems": [
    "Sgrid.C44_openmp",
    "Sgrid.C44_sorted",
    "Sgrid.C44_serial_partial",
    "Sgrid.C44_drop",
    "Sgrid.C44_drop_runs",
    "Sgrid.C44_serial_counterexample"
   ],
   "note": "Without LEVEL6_Pragmas the copy of the grid is made before vlx is set to zero, the matrix is wrong unless vlx is zero already (counterexample). With OpenMP and for sorted variables the property holds."
  },
  {
   "property": "C45",
   "status": "proved",
   "theorems": [
    "Sgrid.C45_slots",
    "Sgrid.C45_into",
    "Sgrid.C45_outof",
    "Sgrid.C45_list_array_list",
    "Sgrid.C45_array_list_array"
   ],
   "note": "All three orders. The LEVEL3 variants only call errorexit."
  },
  {
   "property": "C46",
   "status": "proved",
   "theorems": [
    "Sgrid.C46_returns",
    "Sgrid.C46_perturbed",
    "Sgrid.C46_invertible",
    "Sgrid.C46_singular"
   ],
   "note": "Exact arithmetic. For every invertible matrix no pivot vanishes. For a singular matrix without a row or column of zeros lu_decomp returns 0 and lu_det is not zero."
  },
  {
   "property": "C47",
   "status": "proved",
   "theorems": [
    "Sgrid.C47_bisect_sign",
    "Sgrid.C47_bisect",
    "Sgrid.C47_brent_sign",
    "Sgrid.C47_brent",
    "Sgrid.C47_zbrent",
    "Sgrid.C47_brak"
   ],
   "note": "Exact arithmetic. The accuracy of the Brent solvers contains the term with the machine precision of the code."
  },
  {
   "property": "C48",
   "status": "proved",
   "theorems": [
    "Sgrid.C48_iterations",
    "Sgrid.C48_once",
    "Sgrid.C48_order",
    "Sgrid.C48_number"
   ],
   "note": "Exact arithmetic."
  },
  {
   "property": "C49",
   "status": "proved",
   "theorems": [
    "Sgrid.C49_closest",
    "Sgrid.C49_box"
   ],
   "note": ""
  },
  {
   "property": "C50",
   "status": "partial",
   "theorems": [
    "Sgrid.C50_partial",
    "Sgrid.C50_finite",
    "Sgrid.C50_counterexample",
    "Sgrid.C50_unit_matrix_counterexample"
   ],
   "note": "Proved: a return value between 0 and itmax means that the residual of the returned x is at most tol, for every linear operator and preconditioner; and it ends after at most as many passes as there are unknowns, with success or a breakdown (C50_finite, exact arithmetic). False in the code: on non-convergence itmax+1 is returned, which is not negative; and after convergence in the first half step the code -11 is returned (unit matrix)."
  },
  {
   "property": "C51",
   "status": "proved",
   "theorems": [
    "Sgrid.C51_inverse",
    "Sgrid.C51_inverse_right",
    "Sgrid.C51_ray",
    "Sgrid.C51_surfaces",
    "Sgrid.C51_status",
    "Sgrid.C51_rho",
    "Sgrid.C51_stretched",
    "Sgrid.C51_cover",
    "Sgrid.C51_disjoint"
   ],
   "note": "real numbers instead of doubles; also the status and the snapping of A, B within 1e-10 of their range, the stretched version and the cover of a shell by the six patches"
  },
  {
   "property": "C52",
   "status": "proved",
   "theorems": [
    "Sgrid.C52_arg",
    "Sgrid.C52_arg_plus",
    "Sgrid.C52_arg_complex",
    "Sgrid.C52_arg_zero",
    "Sgrid.C52_unique"
   ],
   "note": "Real numbers instead of doubles; PI is \u03c0."
  },
  {
   "property": "C53",
   "status": "proved",
   "theorems": [
    "Sgrid.C53_reset",
    "Sgrid.C53_reset_var",
    "Sgrid.C53_odd",
    "Sgrid.C53_consistent",
    "Sgrid.C53_idempotent",
    "Sgrid.C53_same_point",
    "Sgrid.C53_same_point_code",
    "Sgrid.C53_copy",
    "Sgrid.Spec.Averaged.unique"
   ],
   "note": "both the averaging over double covered points and the parallel copy (any schedule); an odd number of points in phi aborts"
  },
  {
   "property": "C54",
   "status": "proved",
   "theorems": [
    "Sgrid.C54_constraints",
    "Sgrid.C54_frame",
    "Sgrid.C54_idempotent"
   ],
   "note": "doubles are real numbers, metric components in different arrays, positive determinant, active box"
  },
  {
   "property": "C55",
   "status": "proved",
   "theorems": [
    "Sgrid.C55_power_of_two"
   ],
   "note": "For all values of a 32 bit int."
  },
  {
   "property": "C56",
   "status": "proved",
   "theorems": [
    "Sgrid.C56_trim",
    "Sgrid.Spec.Trimmed.unique",
    "Sgrid.C56_argv",
    "Sgrid.Spec.Words.unique",
    "Sgrid.C56_split",
    "Sgrid.C56_no_eq",
    "Sgrid.beforeAfterEQ_split"
   ],
   "note": "Strings are arrays of characters ending in 0; buffers are assumed large enough."
  },
  {
   "property": "C57",
   "status": "proved",
   "theorems": [
    "Sgrid.C57_min",
    "Sgrid.C57_max",
    "Sgrid.C57_min2",
    "Sgrid.C57_max2",
    "Sgrid.C57_min3",
    "Sgrid.C57_max3"
   ],
   "note": "Entries are from any linear order (no NaN)."
  },
  {
   "property": "C58",
   "status": "partial",
   "theorems": [
    "Sgrid.C58_words",
    "Sgrid.C58_once",
    "Sgrid.C58_two_blanks_counterexample",
    "Sgrid.C58_all_counterexample"
   ],
   "note": "Proved for lists with single blanks and outputall off; otherwise counterexamples."
  },
  {
   "property": "C59",
   "status": "partial",
   "theorems": [
    "Sgrid.C59_self_assignment_ub",
    "Sgrid.C59_assign_from_other_partial",
    "Sgrid.C59_other_calls_safe"
   ],
   "note": "the property is false: Sets(n,Gets(n)) reads freed memory; all calls whose arguments do not alias the stored string are proved safe"
  },
  {
   "property": "C60",
   "status": "partial",
   "theorems": [
    "Sgrid.C60_times",
    "Sgrid.C60_interval",
    "Sgrid.C60_restart",
    "Sgrid.C60_restart_any",
    "Sgrid.C60_short_interval_counterexample",
    "Sgrid.C60_di_zero_counterexample"
   ],
   "note": "Proved if the interval is not 0; it is 0 (division by zero) for 0 < checkpoint_dt < dt and for checkpoint_di = 0 (counterexamples)."
  },
  {
   "property": "C61",
   "status": "partial",
   "theorems": [
    "Sgrid.C61_constant_flag_partial",
    "Sgrid.C61_counterexample"
   ],
   "note": "false in restarts (witness); proved for first runs"
  },
  {
   "property": "C62",
   "status": "partial",
   "theorems": [
    "Sgrid.C62_swap_partial",
    "Sgrid.C62_counterexample"
   ],
   "note": "False in the code: the temporary variable is shared by the threads, C62_counterexample is a schedule that loses a value. True if passes do not overlap in time."
  },
  {
   "property": "C63",
   "status": "partial",
   "theorems": [
    "Sgrid.C63_pushlist_self_counterexample",
    "Sgrid.C63_droplist_self_counterexample"
   ],
   "note": "False: the loops compare with the length of the list that is being changed."
  },
  {
   "property": "C64",
   "status": "proved",
   "theorems": [
    "Sgrid.C64_roundtrip",
    "Sgrid.C64_nnodes"
   ],
   "note": "Variable names are words, no two different names share an index, files are written and read without i/o errors."
  },
  {
   "property": "C65",
   "status": "partial",
   "theorems": [
    "Sgrid.C65_run",
    "Sgrid.C65_runs",
    "Sgrid.C65_complete",
    "Sgrid.C65_rename_safe",
    "Sgrid.C65_copy_counterexample"
   ],
   "note": "Proved for checkpoint_previous = no and without --keep_previous, checkpoint_indir and checkpoint_outdir. With checkpoint_previous the output is copied and an interrupted copy loses the checkpoint at the next start (counterexample)."
  },
  {
   "property": "C66",
   "status": "partial",
   "theorems": [
    "Sgrid.C27_evolve_rk",
    "Sgrid.C29_formula",
    "Sgrid.C30_icn",
    "Sgrid.C30_euler",
    "Sgrid.C66_icn_counterexample"
   ],
   "note": "Holds for all Runge-Kutta schemes. Iterative Crank-Nicholson evaluates all three right hand sides at the old time, and ICN and Euler do not advance the time of the list."
  },
  {
   "property": "C67",
   "status": "partial",
   "theorems": [
    "Sgrid.C67_lists_partial",
    "Sgrid.C67_restart_counterexample",
    "Sgrid.C67_method_counterexample"
   ],
   "note": "Holds if the first step of the run is iteration 0 and the methods do not change; with checkpoint_restart_it <= 0 u_p is a NULL pointer in the first step."
  },
  {
   "property": "C68",
   "status": "proved",
   "theorems": [
    "Sgrid.C68_int",
    "Sgrid.C68_definite"
   ],
   "note": "For an even number of points four_int leaves out the highest frequency, as the statement says."
  },
  {
   "property": "C69",
   "status": "partial",
   "theorems": [
    "Sgrid.C69_det",
    "Sgrid.C69_inverse",
    "Sgrid.C69_singular",
    "Sgrid.C69_transpose",
    "Sgrid.C69_product",
    "Sgrid.C69_first",
    "Sgrid.C69_second",
    "Sgrid.C69_comp_first",
    "Sgrid.C69_comp_second",
    "Sgrid.C69_generic_first",
    "Sgrid.C69_generic_second",
    "Sgrid.C69_generic_exact",
    "Sgrid.C69_unstored_counterexample"
   ],
   "note": "Exact arithmetic; arguments and results are different arrays. A singular matrix gives no error but a matrix whose product with it is zero (C69_singular). False in the code: if only the second derivatives are generic and the first derivatives are not stored, the second derivatives are zero (C69_unstored_counterexample)."
  },
  {
   "property": "C70",
   "status": "proved",
   "theorems": [
    "Sgrid.C70_matrix",
    "Sgrid.C70_diffmatrix",
    "Sgrid.C70_opmatrix",
    "Sgrid.C70_matTimesMat"
   ],
   "note": "For all routines that are linear on the line; linearity of every transform, derivative and evaluation routine is proved in Lemmas/LineLinear.lean."
  },
  {
   "property": "C71",
   "status": "proved",
   "theorems": [
    "Sgrid.C71_extrema",
    "Sgrid.C71_zeros",
    "Sgrid.C71_fourier",
    "Sgrid.C71_deriv3d"
   ],
   "note": "Second Fourier derivatives: exact for odd numbers of points; for an even number the highest frequency is dropped before the second derivative, as the statement says."
  },
  {
   "property": "C72",
   "status": "proved",
   "theorems": [
    "Sgrid.C72_allDerivs",
    "Sgrid.C72_order",
    "Sgrid.C72_abort"
   ],
   "note": "With FFTs only the order 123 is accepted, the others stop the program (C72_abort)."
  },
  {
   "property": "C73",
   "status": "proved",
   "theorems": [
    "Sgrid.C73_integral3d",
    "Sgrid.C73_integral2d",
    "Sgrid.C73_abort"
   ],
   "note": "Finite-difference directions stop the program (C73_abort)."
  },
  {
   "property": "C74",
   "status": "proved",
   "theorems": [
    "Sgrid.C74_points",
    "Sgrid.C74_points_serial",
    "Sgrid.C74_bodies",
    "Sgrid.C74_lines",
    "Sgrid.C74_analysis",
    "Sgrid.C74_synthesis",
    "Sgrid.C74_deriv1",
    "Sgrid.C74_all_derivs"
   ],
   "note": "Memory accesses of single doubles interleave arbitrarily, in one order seen by all threads. C74_lines is the statement for any line routine; loops with static buffers (the _diffmatrix routines) are not parallel in the code."
  },
  {
   "property": "C75",
   "status": "partial",
   "theorems": [
    "Sgrid.C75_name_value_partial",
    "Sgrid.C75_no_delim",
    "Sgrid.C75_leading",
    "Sgrid.C75_null_counterexample",
    "Sgrid.C75_cut_counterexample"
   ],
   "note": "False in the code for empty strings (NULL is dereferenced) and for several delimiters; holds if name and value contain none."
  },
  {
   "property": "C76",
   "status": "proved",
   "theorems": [
    "Sgrid.C76_finit"
   ],
   "note": ""
  },
  {
   "property": "C77",
   "status": "proved",
   "theorems": [
    "Sgrid.C77_dArgdx",
    "Sgrid.C77_dArgdy",
    "Sgrid.C77_dArgPlusdx",
    "Sgrid.C77_dArgPlusdy",
    "Sgrid.C77_ddArgdxdx",
    "Sgrid.C77_ddArgdxdy",
    "Sgrid.C77_ddArgdydy",
    "Sgrid.C77_tanh",
    "Sgrid.C77_abstanh",
    "Sgrid.C77_argtanh",
    "Sgrid.C77_abssech",
    "Sgrid.C77_argsech",
    "Sgrid.C77_dArgtanhdx",
    "Sgrid.C77_dArgtanhdy",
    "Sgrid.C77_ddArgtanhdxdx",
    "Sgrid.C77_ddArgtanhdxdy",
    "Sgrid.C77_ddArgtanhdydy",
    "Sgrid.C77_dAbstanhdx",
    "Sgrid.C77_dAbstanhdy",
    "Sgrid.C77_ddAbstanhdxdx",
    "Sgrid.C77_ddAbstanhdydy",
    "Sgrid.C77_ddAbstanhdxdy",
    "Sgrid.C77_base_angle"
   ],
   "note": "Real numbers instead of doubles."
  },
  {
   "property": "C78",
   "status": "partial",
   "theorems": [
    "Sgrid.C78_polar",
    "Sgrid.C78_polar_axis",
    "Sgrid.C78_polarCE_partial",
    "Sgrid.C78_polarCE_counterexample",
    "Sgrid.C78_sphericalDF",
    "Sgrid.C78_compact",
    "Sgrid.C78_spherical",
    "Sgrid.C78_spherical2",
    "Sgrid.C78_spherical3",
    "Sgrid.C78_tan_stretch",
    "Sgrid.FirstDerivs_inverse",
    "Sgrid.FirstDerivs_unique"
   ],
   "note": "proved for all systems except PolarCE, whose radius row is wrong in the code (witness: drho_dx of Polar is called with the coordinate Y instead of the angle); real numbers instead of doubles, decimal constants of Spherical3 taken as the multiples of pi they stand for"
  },
  {
   "property": "C79",
   "status": "proved",
   "theorems": [
    "Sgrid.C79_sphericalDF",
    "Sgrid.C79_compact",
    "Sgrid.C79_spherical",
    "Sgrid.C79_spherical2",
    "Sgrid.C79_spherical3",
    "Sgrid.C79_tan_stretch",
    "Sgrid.SecondDerivs_unique"
   ],
   "note": "real numbers instead of doubles; Spherical3 needs cos(phi) not 0 because the formula for dphi/dxdy contains tan(phi)"
  },
  {
   "property": "C80",
   "status": "proved",
   "theorems": [
    "Sgrid.C80_derivs",
    "Sgrid.C80_stretched",
    "Sgrid.C80_r",
    "Sgrid.C80_lam_of_r",
    "Sgrid.C80_sigma",
    "Sgrid.C80_sigma_interp"
   ],
   "note": "real numbers instead of doubles; surfaces assumed differentiable with the derivatives that the code reads"
  },
  {
   "property": "C81",
   "status": "proved",
   "theorems": [
    "Sgrid.C81_angles",
    "Sgrid.C81_dphi_cos_sin",
    "Sgrid.C81_dtheta",
    "Sgrid.C81_dphi",
    "Sgrid.C81_pole_counterexample"
   ],
   "note": "the angles everywhere; the derivatives off the poles, where Theta is not differentiable and the code returns arbitrary numbers"
  },
  {
   "property": "C82",
   "status": "proved",
   "theorems": [
    "Sgrid.C82_flat",
    "Sgrid.C82_dot",
    "Sgrid.C82_dot_arrays",
    "Sgrid.C82_dot_symm",
    "Sgrid.C82_dot_linear",
    "Sgrid.C82_norm",
    "Sgrid.C82_norm_zero",
    "Sgrid.C82_norm_scale",
    "Sgrid.C82_box_norm",
    "Sgrid.C82_var_norm"
   ],
   "note": "Exact arithmetic. For a grid without points the C code divides zero by zero."
  },
  {
   "property": "C83",
   "status": "proved",
   "theorems": [
    "Sgrid.C83_partition",
    "Sgrid.C83_ranges",
    "Sgrid.C83_point",
    "Sgrid.C83_slots",
    "Sgrid.C83_into",
    "Sgrid.C83_outof",
    "Sgrid.C83_sub_array_sub",
    "Sgrid.C83_array_sub_array"
   ],
   "note": ""
  },
  {
   "property": "C84",
   "status": "proved",
   "theorems": [
    "Sgrid.C84_box",
    "Sgrid.C84_box_product",
    "Sgrid.C84_subbox"
   ],
   "note": "Threads work on their own copies of the grid, all orders of the adds."
  },
  {
   "property": "C85",
   "status": "proved",
   "theorems": [
    "Sgrid.C85_bracket",
    "Sgrid.C85_accuracy",
    "Sgrid.C85_accuracy_counterexample"
   ],
   "note": "Exact arithmetic. Without bounds on the slope the accuracy is missed by any factor (counterexample)."
  },
  {
   "property": "C86",
   "status": "partial",
   "theorems": [
    "Sgrid.C86_brent",
    "Sgrid.C86_brent_inside",
    "Sgrid.C86_minbrent_undefined",
    "Sgrid.C86_minbrent_partial",
    "Sgrid.C86_minbrent_counterexample"
   ],
   "note": "Proved for brent_with_pointer_to_pars. minbrent_brak declares d inside its loop and reads it uninitialised in the second pass: proved that it is undefined behaviour unless it returns before, and that it agrees with brent_with_pointer_to_pars if the memory happens to keep d."
  },
  {
   "property": "C87",
   "status": "proved",
   "theorems": [
    "Sgrid.C87_min_brak"
   ],
   "note": "Exact arithmetic."
  },
  {
   "property": "C88",
   "status": "proved",
   "theorems": [
    "Sgrid.C88_trapez",
    "Sgrid.C88_simpson",
    "Sgrid.C88_simpson_old",
    "Sgrid.C88_simpson_old_counterexample",
    "Sgrid.C88_trapezit",
    "Sgrid.C88_integral",
    "Sgrid.C88_polint",
    "Sgrid.C88_romberg",
    "Sgrid.C88_romberg_undefined"
   ],
   "note": "Exact arithmetic. The old Simpson rule reads beyond the last point if there are two points (counterexample, excluded); rombintegral returns uninitialised memory for max < 5 (proved)."
  },
  {
   "property": "C89",
   "status": "proved",
   "theorems": [
    "Sgrid.C89_rkck",
    "Sgrid.C89_order",
    "Sgrid.C89_rkqs",
    "Sgrid.C89_hnext",
    "Sgrid.C89_rkqs_ends",
    "Sgrid.C89_rkqs_stepper",
    "Sgrid.C89_odeintegrate",
    "Sgrid.C89_empty",
    "Sgrid.C89_start_counterexample",
    "Sgrid.C89_negative_counterexample"
   ],
   "note": "Exact arithmetic; pow is the real power. The statements need kmax >= 0 and, for the first kept point, dxsav not 0; the two counterexamples show what happens otherwise. odeintegrate_HR is not modelled."
  },
  {
   "property": "C90",
   "status": "proved",
   "theorems": [
    "Sgrid.C90_range",
    "Sgrid.C90_inverted",
    "Sgrid.C90_monotone",
    "Sgrid.C90_deriv",
    "Sgrid.C90_jump",
    "Sgrid.C90_01"
   ],
   "note": "Exact functions. For q=0 the step is a jump at x0."
  },
  {
   "property": "C91",
   "status": "partial",
   "theorems": [
    "Sgrid.C91_report",
    "Sgrid.C91_rhs_partial",
    "Sgrid.C91_rhs_counterexample",
    "Sgrid.C91_full_step",
    "Sgrid.C91_backtrack",
    "Sgrid.C91_backtrack_counterexample",
    "Sgrid.C91_convergence"
   ],
   "note": "The report and the convergence hold. False in the code: after backtracking another linear solver is called with vlFu at the last trial of the minimisation instead of F(u) (C91_rhs_counterexample), and a step with backtracking can increase the residual (C91_backtrack_counterexample); what holds is in C91_rhs_partial and C91_backtrack. Linear solvers, hooks and random steps are arbitrary functions."
  },
  {
   "property": "C92",
   "status": "proved",
   "theorems": [
    "Sgrid.C92_step",
    "Sgrid.C92_abort",
    "Sgrid.C92_fixed",
    "Sgrid.C92_energy",
    "Sgrid.C92_contraction",
    "Sgrid.C92_solver",
    "Sgrid.C92_convergence"
   ],
   "note": "Exact arithmetic. SOR_Iterator, which copies grid variables into arrays and calls matrix_SOR, is not modelled."
  },
  {
   "property": "C93",
   "status": "partial",
   "theorems": [
    "Sgrid.C93_gsl_partial",
    "Sgrid.C93_status_counterexample"
   ],
   "note": "The GSL is an arbitrary function. Proved if it always succeeds. False in the code otherwise: the return value of the GSL is ignored and the status is always 0."
  },
  {
   "property": "C94",
   "status": "partial",
   "theorems": [
    "Sgrid.C94_jacobian",
    "Sgrid.C94_jacobian_affine",
    "Sgrid.C94_parabola",
    "Sgrid.C94_cubic",
    "Sgrid.C94_step",
    "Sgrid.C94_report",
    "Sgrid.C94_descent",
    "Sgrid.C94_affine",
    "Sgrid.C94_root_counterexample",
    "Sgrid.C94_singular_counterexample"
   ],
   "note": "Exact arithmetic. False in the code: success with check=0 is reported although |F| is above the tolerance, if the step is tiny and x is set back (C94_root_counterexample), or if the matrix is singular (C94_singular_counterexample, the first row is not tested). C94_report says what holds for every ending. The descent needs invertible matrices."
  },
  {
   "property": "C95",
   "status": "partial",
   "theorems": [
    "Sgrid.C95_within",
    "Sgrid.C95_vecs_partial",
    "Sgrid.C95_uninitialised_counterexample",
    "Sgrid.C95_extrapolate"
   ],
   "note": "False in the code: if the first coordinate that differs from the centre is inside its range, an uninitialised variable is read (C95_uninitialised_counterexample). Otherwise the points are as claimed and the extrapolation is exact for affine functions."
  },
  {
   "property": "C96",
   "status": "partial",
   "theorems": [
    "Sgrid.C96_direction",
    "Sgrid.C96_line",
    "Sgrid.C96_report",
    "Sgrid.C96_returns",
    "Sgrid.C96_stall_counterexample"
   ],
   "note": "Exact arithmetic. Everything but the convergence is proved. False in the code: for 2x=0 and x=1 it goes back and forth between 1 and -1 for ever, since equal residuals are accepted (C96_stall_counterexample). The wrapper WTsolver is not modelled."
  },
  {
   "property": "C97",
   "status": "partial",
   "theorems": [
    "Sgrid.C97_columns_partial",
    "Sgrid.C97_lines",
    "Sgrid.C97_negative_counterexample",
    "Sgrid.C97_order_counterexample",
    "Sgrid.C97_columns_ascending",
    "Sgrid.C97_info",
    "Sgrid.C97_wrapper_openmp",
    "Sgrid.C97_wrapper_serial_partial",
    "Sgrid.C97_wrapper_sorted"
   ],
   "note": "UMFPACK is an arbitrary function that keeps its contract. False for columns that are not in ascending order (C97_order_counterexample), which the functions that read the matrix never produce (C97_columns_ascending), and for a negative dropbelow, where more is written than allocated (C97_negative_counterexample). Without OpenMP the wrapper needs vlx to be zero at the start (C44_serial_counterexample). Integer overflow of the number of entries is not modelled."
  },
  {
   "property": "C98",
   "status": "partial",
   "theorems": [
    "Sgrid.C98_ninactive",
    "Sgrid.C98_active",
    "Sgrid.C98_flags",
    "Sgrid.C98_allflags",
    "Sgrid.C98_blocks",
    "Sgrid.C98_diaginv",
    "Sgrid.C98_apply",
    "Sgrid.C98_jacobi",
    "Sgrid.C98_freed",
    "Sgrid.C98_precon",
    "Sgrid.C98_block_solve",
    "Sgrid.C98_singular_counterexample",
    "Sgrid.C98_unset_counterexample"
   ],
   "note": "Linear solvers, UMFPACK and SuiteSparseQR are arbitrary functions. False in the code: a diagonal element zero is never stored, so that the error 'DiagM is singular' cannot occur and the preconditioner gives zero (C98_singular_counterexample); the qmr and bicg wrappers with Jacobi preconditioner use a pointer that is NULL or freed (C98_unset_counterexample). The rest is proved."
  },
  {
   "property": "C99",
   "status": "proved",
   "theorems": [
    "Sgrid.C99_first",
    "Sgrid.C99_first_cartesian",
    "Sgrid.C99_sing",
    "Sgrid.C99_second",
    "Sgrid.C99_second_other",
    "Sgrid.C99_stored",
    "Sgrid.C99_chain",
    "Sgrid.C99_exact",
    "Sgrid.C99_Sab",
    "Sgrid.C99_Sa",
    "Sgrid.C99_S",
    "Sgrid.C99_all_Sab",
    "Sgrid.C99_all_Sa",
    "Sgrid.C99_all_S",
    "Sgrid.C99_first_only",
    "Sgrid.C99_names",
    "Sgrid.C99_calls"
   ],
   "note": "The derivatives in the directions of the box are arbitrary functions of an array here (C34, C37, C40, C41 say what they are); so are the functions Sing_d_dx for singular points, which C99_first and C99_calls assume to be unset. The results must be variables that differ from the argument and from the stored derivatives of the coordinates."
  }
 ]
}