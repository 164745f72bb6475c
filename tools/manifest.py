#!/usr/bin/env python3
"""Writes MANIFEST.json; one entry per property."""
import json, os
HERE = os.path.dirname(os.path.abspath(__file__))
claims = []
def claim(pid, status, theorems, note=""):
    claims.append({"property": pid, "status": status,
                   "theorems": ["Alta." + t for t in theorems.split()], "note": note})

claim("C01", "proved", "parseInput_inputName inputName_spelling parseInput_sound parseInput_unknown inputName_injective inputName_unregistered",
      "Enumerators missing from the table are named UNKNOWN_INPUT; inputName_unregistered lists them.")
claim("C02", "proved", "parseOutput_outputName parseOutput_sound parseOutput_unknown outputName_injective")
claim("C03", "proved", "inputDim_eq fromCartesian_length convertInput_length toCartesian_reads toCartesian_isSome toCartesian_congr convertInput_congr RUSIN_TH_PH_TD_dimension",
      "RUSIN_TH_PH_TD_dimension records the one parametrization whose declared dimension the code does not serve.")
claim("C04", "proved", "convertInput_self convertInput_via_cartesian convertInput_self_unregistered")
claim("C05", "partial", "toCartesian_unit_partial COS_TK_unit_iff SCHLICK_VK_unit_iff STEREOGRAPHIC_not_unit",
      "Proved for all parametrizations where it is true; the full statement is false for COS_TK, SCHLICK_VK and STEREOGRAPHIC: the exact condition or a refutation is proved.")
claim("C06", "proved", "halfToCartesian_geometry halfToCartesian_frame")
claim("C07", "partial", "RUSIN_TH_PH_TD_PD_directions_round_trip RUSIN_TH_PH_TD_PD_coordinates_round_trip_partial RUSIN_TH_PH_TD_PD_pole",
      "Coordinates: away from the poles of the half and difference vectors (where the azimuth is lost, shown by RUSIN_TH_PH_TD_PD_pole).")
claim("C08", "proved", "SPHERICAL_directions_round_trip fromCartesian_aborts SPHERICAL_coordinates_round_trip",
      "For pairs whose z sum is non negative; the code aborts on the others (fromCartesian_aborts).")
claim("C09", "partial", "ISOTROPIC_TV_TL_DPHI_round_trip RUSIN_TH_TD_PD_round_trip ISOTROPIC_TL_TV_PROJ_DPHI_mirrors ISOTROPIC_TL_TV_PROJ_DPHI_not_rotation NEUMANN_3D_swaps STARK_3D_swaps NEUMANN_STARK_not_rotation SCHLICK_TL_TK_PROJ_DPHI_mirrors RETRO_TL_TVL_PROJ_DPHI_mirrors RETRO_TL_TVL_PROJ_DPHI_wrong_side",
      "True for ISOTROPIC_TV_TL_DPHI and RUSIN_TH_TD_PD; for the others the exact effect (mirror image or exchange of view and light) is proved with a refutation of the full claim.")
claim("C10", "partial", "lossy_round_trip_partial COS_TLR_round_trip_negates COS_TK_round_trip_fails SCHLICK_VK_round_trip_fails STEREOGRAPHIC_round_trip_fails",
      "Refuted for COS_TLR, COS_TK, SCHLICK_VK and STEREOGRAPHIC; proved for the others.")
claim("C11", "proved", "reciprocity reciprocity_half_angle")
claim("C12", "partial", "rotation_invariant rotation_invariant_azimuth rotation_invariant_mod COS_TLR_not_isotropic ISOTROPIC_TL_TV_PROJ_DPHI_normal_light",
      "Exact for the coordinates without azimuth; for the others wherever the measured azimuths exist. False for COS_TLR and, with the light along the normal, for ISOTROPIC_TL_TV_PROJ_DPHI (refuted).")
claim("C13", "proved", "fromCartesian_defined grazing_undefined",
      "All named parametrizations; the only undefined case (V = L grazing, COS_TK and SCHLICK_TL_TK_PROJ_DPHI) is excluded by hypothesis and proved undefined.")
claim("C14", "proved", "isAboveHemisphere_iff isAboveHemisphere_outside")
claim("C15", "partial", "convertOutput_isSome convertOutput_copy convertOutput_average_partial convertOutput_average_stale",
      "The average accumulates onto the previous content of the output cell: true iff that content is zero.")
claim("C16", "proved", "parseArgs_spec parseArgs_defined parseArgs_value parseArgs_items parseArgs_negative parseArgs_empty_word",
      "For every argv without empty words. Limits proved: a negative number is not read as a value (parseArgs_negative), an empty word inside an unclosed bracket makes the parser read before the start of a string (parseArgs_empty_word).")
claim("C17", "proved", "get_default get_integer get_decimal get_flag")
claim("C18", "proved", "getVecStr_list getVec_list getVec_decimals getVec_scalar getVec_unclosed")
claim("C19", "proved", "update_spec")
claim("C20", "partial", "createArguments_getCmd createArguments_negative",
      "For maps whose names are words and whose values do not look like options; a negative number is lost (proved).")
claim("C21", "proved", "parseHeader_spec parseHeader_rest parseHeader_HEADER_END",
      "parseHeader_HEADER_END records that the documented closing line is not recognised.")
claim("C22", "partial", "binary_round_trip_partial binary_other_data_partial binary_truncated binary_round_trip_corrupts",
      "Holds unless the first byte of the data is '#': the header reader then swallows data. binary_round_trip_corrupts refutes the full statement.")
claim("C23", "proved", "loadText_spec loadRows_unterminated loadText_example",
      "For every well formed body (rows with enough numbers), filtering options, interval options and cosine correction included.")
claim("C24", "partial", "loaded_interval_encloses getSegment_none getSegment_asymmetrical makeSegment_spec makeSegment_encloses getSegment_symmetrical set_value_leaves_interval makeSegment_relative_negative intervalBounds_negative intervalBounds_greatest rowWidths_first_only",
      "Proved for non negative widths (and non negative values when relative); the cases where the code breaks it (symmetrical data, relative widths of negative values, value overwritten alone) are proved as limits.")
claim("C25", "proved", "set_get set_refused get_isSome")
claim("C26", "partial", "bounds_exact set_leaves_bounds",
      "Exact when the data set is built; set() does not update the bounds (proved limit).")
claim("C27", "proved", "equals_iff equals_refl equals_symm equals_zero equals_default",
      "equals_default records that the default epsilon is 1.")
claim("C51", "proved", "text_round_trip text_round_trip_equals",
      "Number printing is a parameter; samples beyond the largest float are dropped by the loader, hence the hypothesis.")
claim("C28", "proved", "compound_value compound_parametrization",
      "For components respecting the nonlinear_function contract (Cls.Lawful) with equal numbers of channels, however nested.")
claim("C29", "proved", "parameters_round_trip composition_parameters_length composition_params compound_members")
claim("C30", "proved", "compound_jacobian Fn.jacobian_correct")
claim("C31", "proved", "diffuseBlinnFresnel_correct product_value product_value_grey product_parameters product_jacobian product_parametrization",
      "The Jacobian for factors with the same number of channels.")
claim("C37", "partial", "blinn_value blinn_jacobian retroblinn_jacobian_partial retroblinn_jacobian_behind",
      "The Blinn lobe: proved in full. The retro Blinn variant: right for positive cosines, refuted for negative ones.")
claim("C38", "partial", "schlickFresnel_value schlickFresnel_jacobian retroSchlick_value retroSchlick_jacobian dotVH_cartesian normalizedSchlick_derivative normalizedSchlick_jacobian_wrong",
      "The Schlick and retro Schlick factors: proved in full. The normalised variant has a wrong Jacobian (refuted).")
claim("C39", "partial", "schlickMasking_value schlickMasking_jacobian smithA_nonneg smithTerm_range smith_value walterTerm_range smith_jacobian_wrong shadowTerm_range shadowTerm_exceeds_one walterSmith_jacobian_wrong",
      "Schlick masking in full; Smith: the value; its Jacobian, and that of the Walter variant, are refuted, as is the bound 1 for the Walter term (it reaches 1.0014 at most).")
claim("C40", "partial", "abc_jacobian_partial abc_jacobian_outside sg_jacobian_partial isoLafortune_jacobian_partial lafortune_jacobian_partial beckmann_jacobian_columns beckmann_jacobian_partial beckmann_jacobian_wrong retrobeckmann_jacobian_columns ward_jacobian_columns ward_jacobian_wrong sgd_jacobian_wrong",
      "True for ABC, spherical Gaussian and the Lafortune lobes where the lobes are differentiable; false for the roughness of Beckmann and Ward and for the shifted gamma lobe: the exact discrepancy is proved.")
claim("C41", "partial", "lobe_parameters_round_trip diffuse_parameters_size",
      "All lobes except the diffuse one (its parameters() vector is not empty although nbParameters() is 0, proved) and retroyoo (see C77).")
claim("C32", "proved", "basis_enumerates basis_degree estimateDk_choose basis_first")
claim("C33", "proved", "rational_value update_value resize_update_value update_self copy_value resize_standard mkRat1_standard update_longer_undefined channel_domain",
      "On functions whose coefficients have the exponents of the enumeration (every object built or resized by the class; update with a longer vector breaks it, update_longer_undefined).")
claim("C34", "proved", "rational_file_round_trip rational_file_same_value readFrom_same_coefficients rational_file_missing_channel",
      "A function with a channel that was never allocated is saved without that channel and cannot be loaded (rational_file_missing_channel).")
claim("C35", "proved", "chebychev_eq chebychev_bounded ratKind_classical ortho_value basis_not_in_file",
      "T_n is Mathlib's polynomial.")
claim("C36", "proved", "legendre_eq legendreCos_eq legendre_characterization ratKind_classical ortho_value cosine_value power_value",
      "P_n is Mathlib's shiftedLegendre moved to [-1, 1]; the closed forms of the cosine plugin are the same polynomials.")
claim("C42", "proved", "metrics_value metrics_consistent metrics_symmetric metrics_zero norms_ordered norms_zero",
      "Without mask; see C52 for masks.")
claim("C52", "partial", "metrics_mask_undefined metrics_mask_all",
      "The property does not hold: the number of rows is the number of zeros of the mask, and rows are written at the index of the sample (proved).")
claim("C43","proved","merl_cells merl_index merl_value merl_get merl_value_get merl_set merl_mirror merl_file_round_trip merl_swap merl_not_reciprocal",
 "Model of merl.cpp. merl_swap/merl_not_reciprocal show a limit: phi_d is mirrored instead of wrapped by pi, so swapping the directions may change the value.")
claim("C44","proved","utia_cells utia_value utia_below utia_get utia_value_get utia_bounds utia_periodic utia_set utia_vecToIndex utia_load utia_negative_theta utia_extrapolates utia_save_load_limit",
 "Model of utia.cpp (binary format; float rounding not modelled). Limits proved: a negative elevation reads before the table, values beyond 75 degrees are extrapolated, save writes text that load_data reads as bytes.")
claim("C45","partial","grid_index grid_indices_rank grid_rank_surjective grid_rank_injective grid_indices grid_abscissa grid_init grid_position multilinear_const grid_value grid_value_inner grid_bounds grid_value_node grid_value_inner_node grid_domain grid_value_overrun grid_value_max grid_domain_rusin",
 "The statement holds below the maxima of the domain; on the upper boundary it is refuted: value reads after the storage (grid_value_max), and the conversion to RUSIN_TH_TD_PD leaves the domain (grid_domain_rusin).")
claim("C46","proved","rbf_value rbf_bounds rbf_constant rbf_empty rbf_near rbf_not_exact",
 "Model of the RBF interpolant; the neighbours found by FLANN are an arbitrary argument.")
claim("C47","proved","searchPath_spec entries_exist openLibrary_spec absent_plugin provided_by_named_library libraryName_spec libraryName_short libraryName_so sticky_dlerror_skips",
 "Limits proved: names of less than two characters throw, a name ending with so is not decorated, and a dlerror keeping old errors (POSIX permits it) makes libraries be skipped. get_function(args) is in C55.")
claim("C48","partial","timer_elapsed timer_reset_stop timer_stop_twice timer_start_twice timer_print",
 "The elapsed time: proved. The printed time is wrong from six minutes on (timer_print).")
claim("C49","proved","constraints_exact constraints_sound constraints_complete constraints_need_scaling fillMatrix_spec program_spec",
 "Up to a positive scaling of the coefficients, as the constraints have an offset delta*||c||; they also force a negative denominator. The documented contract of the external solver QuadProg++ (CI^T x + ci0 >= 0) is the meaning of a constraint.")
claim("C53","proved","quadprog_fit_sound quadprog_fit_complete fitChannel_spec exact_value_not_fittable twoPoints_fitted",
 "The solver QuadProg++ is a parameter with its documented contract (Solver.Sound, Solver.Complete) as hypothesis; idealSolver shows that the contract can be met.")
claim("C54","proved","parallel_fit_all_schedules parallel_fit_schedule_independent parallel_fit_complete_small testConstraints_spec parallel_gives_up test_accepts_nan conversion_leaves_junk",
 "A schedule is the order in which the iterations reach the critical section. Limits proved: the last training sample is never given to the solver, a function that is nowhere a number passes the test, the automatic conversion of other data leaves most of its buffer unwritten. --nb-starting-points is ignored by the code.")
claim("C50","proved","data2data_rows data2data_succeeds data2data_identity interleaving_spec convertPoint_spec",
 "Limits visible in data2data_rows: rows below the hemisphere stay in the output as zero rows, and the confidence intervals of the input are lost (set to zero).")
claim("C55","proved","getFunction_term getFunction_sum getFunction_sum_fresnel sumText_cmdValue getFunction_line getFunction_absent getFunction_member_fails getFunction_empty_sum getFunction_none",
 "Termination for all arguments is part of the definition of getFunction (recursion on the length of the arguments). Limits proved: a missing plugin gives a rational function instead of NULL, a missing plugin in a list or an empty list ends the program.")
claim("C56","partial","loadFunction_saveFunction load_saved_plugin load_saved_sum load_saved_exact FT.load_false withOutput_value blinn_readsBack retroblinn_readsBack beckmann_readsBack ward_readsBack abc_readsBack diffuse_readsBack sg_readsBack isoLafortune_readsBack lafortune_readsBack schlickFresnel_readsBack normalizedSchlick_readsBack retroSchlick_readsBack schlickMasking_readsBack smith_readsBack walterSmith_readsBack sgd_not_saved lobe_saved retrobeckmann_inverted lafortune_exponents_lost sg_type_not_kept compound_partly_loaded mixed_sum_not_kept no_name_not_loaded no_numbers_loaded sgd_file_read FT.load_failed",
 "Proved for all the plugins but four cases in which the code does not have the property, each proved: a function with an sgd lobe cannot be saved (the program ends), retrobeckmann comes back with its other parametrization, lafortune loses the exponents of its lobes, the type of a spherical gaussian is not kept; a sum that mixes a plugin keeping the parametrization of the data with one that sets its own is not kept (mixed_sum_not_kept), and a sum is loaded as soon as one member is (compound_partly_loaded). The output parametrization is not in the file. retroyoo: see C77.")
claim("C57","partial","nlopt_objective nlopt_gradient ipopt_objective ipopt_gradient eigen_residuals eigen_objective weightedSumSquares_plain eigen_derivatives eigen_out_of_bounds ceres_residuals ceres_log_residuals ceres_derivatives ceres_out_of_bounds ceres_log_derivative_wrong ceres_log_fit_example lobe_reads compound_reads product_reads jacobianAtSamples_of_leaves blinn_fit",
 "Proved, but for Ceres with --log-fit, where the code does not have the property: the derivative is divided by 1 + data instead of 1 + value (ceres_log_derivative_wrong says exactly when it is right).")
claim("C58","partial","bootstrap_vector_product bootstrap_vector_sum bootstrap_vector_lobe bootstrap_file bootstrap_each startable_iff lobe_forgets bootstrap_forgets bootstrap_keeps first_guess first_guess_beckmann first_guess_full_lafortune first_guess_gaussian first_guess_lafortune diffuse_start diffuse_start_cosine sgd_not_started fixed_member_not_started fixed_part_not_started diffuse_first_ignored diffuse_option_ends lobe_file_ignored missing_file headerless_file",
 "Proved but for the cases where the code does not have the property, each proved: an sgd lobe keeps the coefficients found in memory, with a vector the fixed members and parts keep theirs, a Beckmann or sgd lobe alone is never read from a saved file, the first sample is ignored for cosine weighted data, the option ends the program for a diffuse term alone, a missing file is ignored by sums and products, a file without the end of header line is read forever. A sum with a vector is shown to have these parameters when its members without parameters are diffuse terms or fully fixed products.")
claim("C59","proved","bounds_ordered start_within_bounds vector_not_checked",
 "Limit: a vector given with --bootstrap is not compared with the bounds (vector_not_checked).")
claim("C60","partial","eigen_fit_outcome eigen_fit_within_bounds eigen_fit_not_worse eigen_fit_false eigen_fit_returns ceres_fit_outcome ceres_fit_within_bounds ceres_fit_not_worse nlopt_fit_outcome nlopt_fit_within_bounds nlopt_fit_not_worse nlopt_fit_false ipopt_fit_outcome ipopt_fit_within_bounds ipopt_fit_not_worse fit_keeps fit_needs_nonlinear betterNlopt_descends betterEigen_descends failed_fit_changes success_without_solution ceres_keeps_diffuse",
 "Proved for all solvers that make a finite number of calls; the exceptions of the code are proved too: Ceres does not put a function without parameters (a diffuse term alone) at its starting point (ceres_keeps_diffuse), Ceres reports success when the solution is not usable and Ipopt when it stopped before a solution (success_without_solution). A failed fit leaves the parameters of the last evaluation (failed_fit_changes). What is expected of the solvers is stated in Spec/NonlinearFitRun and met by the solvers of the examples.")
claim("C61","partial","start_options eigen_options ceres_options nlopt_options ipopt_options nlopt_optimizer nlopt_criteria ipopt_criteria ceres_criteria documented_without_effect nlopt_documented_defaults ceres_documented_tolerances",
 "A fit depends on the listed options only, and each of them does what its code says. The code does not have the rest of the property: three documented options have no effect (documented_without_effect), NLopt gets no default number of evaluations and never a relative tolerance on the function (nlopt_documented_defaults), the gradient and parameter tolerances of Ceres replace the one on the function (ceres_documented_tolerances).")
claim("C62","partial","l2_distance l2_empty l2_zero_iff linf_distance l2_le_linf printed_statistics l2_of_objective nlopt_fit_l2 printed_variance_wrong",
 "Proved but for the printed variance, where the code does not have the property: it is too large by four times the square of the mean (printed_statistics, printed_variance_wrong). The distance of an empty data set is refused by an assertion (l2_empty).")
claim("C63","partial","reciprocal_of_coordinates lobe_reciprocal composition_reciprocal made_product_shared made_compound_shared smith_not_reciprocal retrobeckmann_not_reciprocal sg_moment_not_reciprocal retroSchlick_not_reciprocal",
 "Proved for every composition of objects that are meant reciprocal (LobeObj.MeantReciprocal). The code does not have the property for the Smith term, the retro Beckmann lobe with its default cosine, the moment version of the spherical Gaussian, and the retro Schlick term when both directions are grazing: each refutation is proved. retroyoo: see C77.")
claim("C64","partial","lobe_nonnegative composition_nonnegative bounded_nonnegative blinn_negative sgd_negative",
 "Proved with the sign of the coefficients that the bounds do not cover (NonNegativeFactors) and when nothing is fixed. The code does not have the property for Blinn, retro Blinn and the shifted gamma lobe, whose bounds permit negative values (blinn_negative, sgd_negative).")
claim("C65","partial","fit2stat_norms fit2stat_run mse_is_l2 fit2stat_zero statData_copies statData_average_stale statData_not_both fit2stat_needs_cartesian light_weight_is_view black_sample_not_black",
 "The norms are proved for all functions and data with the same values, the weighted errors for functions on the two directions. The code does not have the rest of the property, each exception is proved: the cosine called light is the one of the view and the file has the light value in place of the product (fit2stat_run, light_weight_is_view), any other parametrization of the function ends the program before the file is written (fit2stat_needs_cartesian), inputs and outputs are never converted together (statData_not_both), the mean of several channels contains that of the previous sample (statData_average_stale).")
claim("C66","proved","data2moments_spec sum_sampleIndices cells_integral moments_consistent moments_affine data2moments_defaults moments_constant data2moments_overflow data2moments_five_dimensions data2moments_one_dimension",
 "Limits proved: constant data have a moment of order 0 equal to 0, by which the others are divided; with the default 100 samples per dimension, five dimensions overflow an int; data with one dimension need the option dim. The fourth order moments and the cumulants are computed but never printed, and are not modelled.")
claim("C67","proved","brdf2data_rows export_distance export_twice export_diff_sum withValues_ready export_out_of_interval",
 "Limit proved: the confidence intervals are those of the template, so that an exported value may lie outside of its interval (export_out_of_interval). The data plugins that may replace the default data object are not modelled.")
claim("C68","partial","data_plot plot_is_export data_plot_cos cos_plot_half data_plot_empty error_plot_zero polar_plot polar_plot_spherical polar_directions polar_plot_odd polar_plot_unknown",
 "Proved but for cos-plot, where the code does not have the property: the values are multiplied by the product of both cosines (data_plot_cos), and for a function of the half angle by the square of its coordinate (cos_plot_half); the polar plot does not read the option. Limits proved: an odd number of samples gives one line less, a function without a parametrization has no polar plot. The text of the numbers is not modelled.")
claim("C69","partial","data2brdf_outcome data2brdf_plugin data2brdf_sum data2brdf_nlopt change_param_aborts channels_abort args_saved",
 "Proved for one plugin and for sums of plugins with the four nonlinear fitters, for the classes that a file holds whole (WrittenWhole: not retrobeckmann and sgd, C56). The fitters of rational functions: see C81. Limits proved: change-param ends the program as soon as the data have samples (change_param_aborts), another number of channels aborts (channels_abort).")
claim("C70","partial","eigen_rational_optimal eigen_rational_exact eigen_rational_succeeds IsQuotient.channel twoPoints_eigen eigen_rational_undefined",
 "The optimum is proved for all data. Exactness at a sample needs a denominator that is not null there: the code does not check it, and a sound decomposition may return such a denominator, with success reported (eigen_rational_undefined). The decomposition of Eigen is a parameter whose promises (orthonormal eigenvectors) are stated in EigenSystem.Sound; one that keeps them exists (idealEigen_sound).")
claim("C71","partial","least_square_optimal least_square_reports least_square_constant least_square_inverse least_square_polynomial least_square_succeeds least_square_zero_data twoPoints_least",
 "Proved with at least one iteration (0 iterations leave the denominator uninitialised). Success is proved for a denominator of size 1 when the sum of the cubes of the values is not null; the code does not have it in general: a channel whose values are all null makes it divide by zero (least_square_zero_data). The inverse of a polynomial is given back with one iteration, the default.")
claim("C72","partial","exported_shader_value_partial exported_shader_exact_partial exported_explorer single_function_not_shader repeated_class_not_shader smith_stops sgd_stops masking_parentheses masking_not_shader walterSmith_not_shader abc_shader_value abc_shader_wrong sgRetro_shader_value sgRetro_shader_wrong sgMoment_shader_value sgMoment_object_value sgMoment_shader_wrong retrobeckmann_shader_value retrobeckmann_shader_wrong beckmann_shader_value beckmann_shader_wrong",
 "Proved for sums whose plugin objects are of different classes, among blinn, retroblinn, ward, diffuse, spherical gaussian (Mirror, Half, Back), isotropic lafortune, lafortune, schlick, normalized schlick and retro schlick; products of objects with one lobe. The reader of the language (Spec/Glsl: words, grammar, values over the reals) is part of the specification. The code does not have the property elsewhere: an object or a product exported alone is not a program (single_function_not_shader), nor is a sum with two objects of the same class (repeated_class_not_shader), the classes smith and sgd end the export (smith_stops, sgd_stops); a function with an object of the class schlick masking or walter smith is never a program (masking_not_shader, walterSmith_not_shader); the shaders of the classes abc, beckmann, retrobeckmann and of the types Retro and Moment of the spherical gaussian are programs that compute something else (abc_shader_wrong, beckmann_shader_wrong, retrobeckmann_shader_wrong, sgRetro_shader_wrong, sgMoment_shader_wrong); the coefficient ks of retroblinn and kd of lafortune are lost and pi is written with the digits of the other numbers (LobeObj.exported). The export of a rational function ends the program (rational_shader_stops, C79).")
claim("C73","partial","slice_get slice_abscissae_distinct slice_value_nearest_partial slice_value_of_sample slice_set_get slice_save_load slice_missing_channel slice_outside_uninitialised slice_low_azimuth slice_upper_bound slice_lower_bound_untested slice_plane",
 "Proved for the points below the upper bounds of the domain and, in the azimuth-first parametrizations, for azimuths not below -90 degrees. The code does not have the rest: at the upper bound of the first coordinate the sample of the other end of the next line is read, or memory after the storage (slice_upper_bound); the azimuth is compared with the lower bound of another coordinate, so that below -90 degrees no sample can be read (slice_low_azimuth) and the lower bound of the coordinate itself is not tested (slice_lower_bound_untested); outside of the domain the result is not initialised (slice_outside_uninitialised); a channel that is missing leaves the earlier content of memory (slice_missing_channel). Not modelled: the coding of EXR files, and a file that cannot be read (the sizes of the image are then not initialised).")
claim("C74","proved","astm_header astm_load astm_load_unterminated astm_load_rgb astm_missing_rows astm_missing_rows_unterminated astm_points_undeclared astm_names_order astm_exchanged_columns",
 "Numbers are exact. Beyond the claim: the names of the columns are only counted, so that a file with its columns in another order is read with the directions exchanged (astm_names_order, astm_exchanged_columns); with fewer rows than declared the program never ends, or stops on an assertion if the last line is not terminated (astm_missing_rows, astm_missing_rows_unterminated); rows with a missing number are not modelled (the rest of the row is indeterminate).")
claim("C75","partial","python_sum python_product python_sum_same python_frame python_set_get python_set_refused python_make python_parts python_sum_follows python_add_outcome python_shared_sum",
 "Proved for every script; set followed by get needs that no plugin object occurs twice in the function. The code does not have it otherwise: both operands of f + f are the same object, and set gives it the second half of the vector for both (python_shared_sum). load and the fitters within a session are not modelled.")
claim("C76","partial","python_data2data python_data2data_same python_interval_lost python_average_undefined python_brdf2data python_brdf2data_channels",
 "The samples are proved. The code does not have the rest: every interval of the result is [0, 0] in place of the values around the sample (python_interval_lost), the mean of several channels has memory added to it and can be any number (python_average_undefined), a function with more channels than the data is cut and one with fewer is read after its end (python_brdf2data_channels). The input of brdf2data is a data object of the default class.")
claim("C77","partial","yoo_lawful yoo_bootstrap yoo_value yoo_value_undefined yoo_ignores_light yoo_negative yoo_wrong_jacobian yoo_not_read_back",
 "The parameters are proved (yoo_lawful). The code does not have the rest: the value is multiplied by an uninitialised number (yoo_value, yoo_value_undefined), it does not depend on the light (yoo_ignores_light), the profile is negative within the bounds (yoo_negative), the derivative with respect to the mean free path is wrong (yoo_wrong_jacobian), and the file is read with success but without its coefficients (yoo_not_read_back).")
claim("C78","partial","brdf2brdf_code brdf2brdf_same brdf2brdf_plugin brdf2brdf_exact brdf2brdf_rational brdf2brdf_rational_chain brdf2brdf_shader loadAny_nonlinear brdf2brdf_func_needed brdf2brdf_export_alta brdf2brdf_bad_input rational_long_line",
 "Proved when the command line of brdf2brdf repeats the option --func of the file (brdf2brdf_same, brdf2brdf_plugin, brdf2brdf_exact), for rational functions (brdf2brdf_rational, brdf2brdf_rational_chain) and for the shaders (brdf2brdf_shader, with C72). The code does not have the rest: without --func the new file cannot be loaded (brdf2brdf_func_needed), with --export alta it has no header and cannot be loaded (brdf2brdf_export_alta), and an input that cannot be loaded is a null pointer (brdf2brdf_bad_input).")
claim("C79","partial","cpp_export_value cpp_export_exact cpp_export_pole cpp_domain_lost cpp_basis_lost cpp_channels_not_a_program cpp_other_channel rational_shader_stops nonlinear_cpp_not_a_program",
 "Proved for one channel on the domain [-1, 1]^d (cpp_export_exact), and on any domain at the point of [-1, 1]^d that corresponds to the given one (cpp_export_value; cpp_export_pole where the denominator is zero). The code does not have the rest: the domain is not written (cpp_domain_lost), nor the basis of the plugins (cpp_basis_lost), with several channels the file is not a program (cpp_channels_not_a_program), a channel that is not the first one is returned as the first one (cpp_other_channel). The shader of a rational function is not written (rational_shader_stops), and a nonlinear function exported as C++ is not a program (nonlinear_cpp_not_a_program).")
claim("C80","partial","data2stats_run data2stats_metrics statsFile_read loadDataFile_saved merl_comparable merl_errors merl_self data2stats_merl data2stats_merl_self data2stats_missing_file data2stats_missing_reference data2stats_failure data2stats_default_input merl_self_negative RUSIN_TH_TD_PD_coordinates",
 "Proved for every input object that answers at the abscissae of the reference, and for MERL files from their bytes to the written statistics. The code does not have the rest: an input of the default class cannot be evaluated (data2stats_default_input), and a MERL file with a negative channel is not at distance 0 of itself (merl_self_negative).")
claim("C81","proved","data2brdf_rational_outcome data2brdf_rational_ends data2brdf_rational_file data2brdf_quadprog_segments data2brdf_quadprog_linf data2brdf_rational_refuses data2brdf_intervals_needed getFunction_rational RationalFitter.onData data2brdf_eigen_optimal data2brdf_least_optimal data2brdf_quadprog_succeeds",
 "The solvers are parameters with a contract (C53, C70, C71). Beyond the claim: a --func whose library is not found is not an error, a rational function is fitted (getFunction_rational), and its file is loaded as well.")
claim("C82","proved","xml_script_run xml_script_commands xml_script_all command_options xml_action_options xml_functions_sum xml_function_single xml_no_output example_options example_run example_no_output",
 "For actions with an input and an output element. Beyond the claim: without one of them the program is run once for each character of its options (xml_no_output), the parameters dat-dir and out-dir are read and not used, and the exit status is 0 when a command fails (xml_script_run).")
claim("C83","partial","eigen_fit_history least_fit_history quadprog_fit_history stateless_fit_history stateless_fit_without fit_without_last least_fit_new ceres_first_options ceres_after ceres_fit_history ceres_fit_without fit_without_not_default fit_new_uninitialised ceres_options_stay",
 "Fits with options: proved for all the fitters but Ceres, which keeps the options of the calls before (ceres_fit_history says which ones, ceres_options_stay is a history where the result is another one). Fits without options: proved for the fitters that keep nothing (the nonlinear ones with Eigen, NLopt, Ipopt, and quadprog_parallel) and for a new least squares fitter. The code does not have the rest: the fit uses the options of the last call that had some (fit_without_last, fit_without_not_default) or, with a new eigen or quadprog fitter, the content of the memory (fit_new_uninitialised).")
claim("C84","partial","python_arguments_find python_arguments_update python_arguments_command_line python_function_from_arguments python_vec_option python_vec_frame python_vec_script python_vec_make python_vec_copy python_vec_add python_vec_sub python_vec_set python_vec_expression python_vec_sizes_unchecked python_vec_set_unchecked",
 "Proved but for the errors: the code does not check the sizes of the operands of a sum (python_vec_sizes_unchecked) nor the index of an assignment (python_vec_set_unchecked): memory outside of the vector is read or written.")
claim("C85","partial","python_load_saved python_saves python_save_then_load python_save_then_load_exact python_files_frame python_files_script python_load_nothing python_load_function_none python_partly_loaded",
 "load is proved. The code does not have the rest: load_function of a file saved from Python is None for every nonlinear function (python_load_function_none: the options are not saved, and save with options cannot be called), a file that cannot be read is no error (python_load_nothing), and a file that is read in part changes a part of the function without an error (python_partly_loaded).")
claim("C86","partial","isotropic_of_coordinates lobe_isotropic composition_isotropic retrobeckmann_not_isotropic sg_moment_not_isotropic",
 "Proved for every composition of objects that are meant isotropic (LobeObj.MeantIsotropic). The code does not have the property for the retro Beckmann lobe with its default cosine and the moment version of the spherical Gaussian: each refutation is proved.")
claim("C87","partial","data2data_exit data2data_run data2data_text_file data2data_binary_file data2data_there_and_back data2data_plugin_file interpolatePoint_spec data2data_splat data2data_null_input data2data_unknown_name data2data_binary_intervals",
 "Proved for the text files, for the binary files whose first byte is not the character # (the others are not loaded, C22), and for all the outputs of plugins. The code does not have the rest: an --in-data that is not found is a null pointer and not an error (data2data_null_input), an unknown --param is ignored (data2data_unknown_name), and the intervals of the samples of a binary file are 0..0 (data2data_binary_intervals).")
claim("C88","partial","brdf2data_run brdf2data_text_file brdf2data_plugin_file brdf2data_failure brdf2data_exit exported_distances fit_then_export_rational fit_then_export_quadprog fit_then_export_nonlinear brdf2data_null_template brdf2data_no_template",
 "Proved for all the templates and functions that can be loaded; the distances of the fit are those of the file when the coefficients are printed exactly. The code does not have the rest: a --data plugin that is not found is a null pointer, and the program then ends with the exit code 0 without writing anything (brdf2data_null_template); with --data and ALTA's own class but no template file, it writes a file without a sample (brdf2data_no_template).")
claim("C89","partial","fit2stat_file fit2statFile_read fit2stat_no_file fit2stat_exit fit2stat_missing fit_then_stat_rational fit_then_stat_nonlinear fitStats_distances fit2stat_not_cartesian fit2stat_other_kinds fit_then_stat_refused",
 "Proved for functions of the two directions and data that can be compared with them. The code does not have the rest: the four weighted statistics of the file all have for weight the first cosine, that of the view (in the conclusion of fit2stat_file, and the example of Props/FitStatExample); a function of another parametrization (fit2stat_not_cartesian), and data of another parametrization and kind of values (fit2stat_other_kinds, so on the data of most nonlinear fits: fit_then_stat_refused), end the program by an exception before anything is written.")
claim("C90","partial","brdf2gnuplot_file brdf2gnuplot_cos_file brdf2gnuplot_linear_file brdf2gnuplot_polar_file brdf2gnuplot_exit brdf2gnuplot_missing plot_as_export plot_distances fit_then_plot_rational fit_then_plot_nonlinear brdf2gnuplot_data_alone brdf2gnuplot_nothing brdf2gnuplot_unwritable brdf2gnuplot_ends",
 "Proved for all the files that can be loaded and compared; the cosines for functions of the two directions (the other cases in C68), the linear plot for values of the data that are not zero, the distances of the fit when the coefficients are printed exactly. The code does not have the rest: an output that cannot be opened, and a run with neither data nor --polar-plot, give the exit code 0 without a file (brdf2gnuplot_unwritable, brdf2gnuplot_nothing); --data alone, which the help describes, always fails (brdf2gnuplot_data_alone); a plugin of data that is not there, data without samples, and the polar plot of a function without parametrization end the program abnormally (brdf2gnuplot_ends).")
claim("C91","partial","data2moments_run momentsFile_read momentsOption_numbers data2moments_exit data2moments_missing data2moments_segments data2moments_merl merl_weight merl_volume merl_ready data2moments_no_plugin data2moments_unwritable data2moments_unbracketed data2moments_constant_file merl_moments_negative",
 "Proved for all interpolating data whose moment of order 0 is not null in each channel, and for MERL files from their bytes to the moments that are written. The code does not have the rest: an output that cannot be opened gives the exit code 0 (data2moments_unwritable), a data plugin that is not there leaves an empty output file (data2moments_no_plugin), data with one value give nan (data2moments_constant_file), a number of samples that is not between brackets ends the program (data2moments_unbracketed), and the negative mark of what was not measured in a MERL file is the smallest value, so that it adds a constant to every value (merl_moments_negative). Negative numbers in the options are not modelled.")
claim("C92","partial","interrupted_binary_partial interrupted_binary_corrupts interrupted_text_header interrupted_text_between interrupted_text_partial interrupted_text_corrupts interrupted_merl_corrupts interrupted_merl_example interrupted_function_corrupts interrupted_function_loads interrupted_beckmann rational_load_complete interrupted_rational interrupted_rational_corrupts",
 "Proved for every number of bytes: a binary file gives none, all or no samples (never a part of them); a text file gives the samples whose lines were written, with at most one more. The code does not have the rest: a binary file cut after its dimensions is read as a text file without samples (interrupted_binary_corrupts); a number that was cut is loaded as another number (interrupted_text_corrupts); a MERL file that was cut is loaded with zeros for all that is missing (interrupted_merl_corrupts, interrupted_merl_example); a function file that was cut after the name of the function is loaded with the coefficients of a new object (interrupted_function_corrupts); for twelve classes any cut after the name is accepted (interrupted_function_loads), and the numbers are the ones that were written, then those of a new object (interrupted_beckmann); a rational function that was cut between two coefficients is loaded with what the memory contained for the others (interrupted_rational), so that its last coefficient can be any number (interrupted_rational_corrupts). Rational functions cut inside a number, or with several channels, are not covered.")
claim("C93","partial","data_generations data_generations_from conversion_step rational_generations reexport_step function_generations reexport_function retrobeckmann_generations",
 "Proved for histories of any length, for printings that are stable and binary files whose first byte is not the one of a comment. The code does not have the rest: a retro-Beckmann lobe of the back direction is read as one of the retro direction and conversely, so that its file changes at each run, for ever (retrobeckmann_generations); the classes that C56 does not read back (Lafortune with several lobes) are not covered.")
claim("C94", "proved", "joined_files joined_bodies joined_rejected saved_files_joined permuted_lines permuted_files selected_lines saved_reordered l2_reordered linf_reordered l2_joined linf_joined quadprog_reordered joined_other_header",
      "When the two headers do not say the same the layout of the first is used for all the samples, whatever the second says: joined_other_header.")
claim("C95", "proved", "data2data_joined data2data_reordered data2data_cut data2data_joined_runs data2data_of_joined_files brdf2data_joined brdf2data_reordered brdf2data_cut brdf2data_joined_runs brdf2data_of_joined_files",
      "For the outputs in ALTA's text format, and templates and inputs in the same format, in a parametrization that exists; the files are described by their headers and lines (Spec/Samplewise).")
claim("C96", "proved", "fit2stat_reordered fit2stat_twice data2stats_reordered data2stats_twice",
      "In exact arithmetic, with files in ALTA's text format, for the runs of C80 and C89, in which the samples can be compared.")
claim("C97", "proved", "fit2stat_joined data2stats_joined",
      "In exact arithmetic up to the printing, with files in ALTA's text format, for the runs of C80 and C89. That the joined file loads as the samples of both is C94 (joined_files).")
claim("C98", "proved", "brdf2gnuplot_joined brdf2gnuplot_joined_plain brdf2gnuplot_joined_runs brdf2gnuplot_reordered brdf2gnuplot_cut",
      "For data in ALTA's text format. That the joined file loads as the samples of both is C94 (joined_files).")
#--END--
json.dump({"claims": claims}, open(os.path.join(HERE, "..", "MANIFEST.json"), "w"), indent=1)
