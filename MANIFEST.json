{
 "claims": [
  {
   "property": "C01",
   "status": "proved",
   "theorems": [
    "Alta.parseInput_inputName",
    "Alta.inputName_spelling",
    "Alta.parseInput_sound",
    "Alta.parseInput_unknown",
    "Alta.inputName_injective",
    "Alta.inputName_unregistered"
   ],
   "note": "Enumerators missing from the table are named UNKNOWN_INPUT; inputName_unregistered lists them."
  },
  {
   "property": "C02",
   "status": "proved",
   "theorems": [
    "Alta.parseOutput_outputName",
    "Alta.parseOutput_sound",
    "Alta.parseOutput_unknown",
    "Alta.outputName_injective"
   ],
   "note": ""
  },
  {
   "property": "C03",
   "status": "proved",
   "theorems": [
    "Alta.inputDim_eq",
    "Alta.fromCartesian_length",
    "Alta.convertInput_length",
    "Alta.toCartesian_reads",
    "Alta.toCartesian_isSome",
    "Alta.toCartesian_congr",
    "Alta.convertInput_congr",
    "Alta.RUSIN_TH_PH_TD_dimension"
   ],
   "note": "RUSIN_TH_PH_TD_dimension records the one parametrization whose declared dimension the code does not serve."
  },
  {
   "property": "C04",
   "status": "proved",
   "theorems": [
    "Alta.convertInput_self",
    "Alta.convertInput_via_cartesian",
    "Alta.convertInput_self_unregistered"
   ],
   "note": ""
  },
  {
   "property": "C05",
   "status": "partial",
   "theorems": [
    "Alta.toCartesian_unit_partial",
    "Alta.COS_TK_unit_iff",
    "Alta.SCHLICK_VK_unit_iff",
    "Alta.STEREOGRAPHIC_not_unit"
   ],
   "note": "Proved for all parametrizations where it is true; the full statement is false for COS_TK, SCHLICK_VK and STEREOGRAPHIC: the exact condition or a refutation is proved."
  },
  {
   "property": "C06",
   "status": "proved",
   "theorems": [
    "Alta.halfToCartesian_geometry",
    "Alta.halfToCartesian_frame"
   ],
   "note": ""
  },
  {
   "property": "C07",
   "status": "partial",
   "theorems": [
    "Alta.RUSIN_TH_PH_TD_PD_directions_round_trip",
    "Alta.RUSIN_TH_PH_TD_PD_coordinates_round_trip_partial",
    "Alta.RUSIN_TH_PH_TD_PD_pole"
   ],
   "note": "Coordinates: away from the poles of the half and difference vectors (where the azimuth is lost, shown by RUSIN_TH_PH_TD_PD_pole)."
  },
  {
   "property": "C08",
   "status": "proved",
   "theorems": [
    "Alta.SPHERICAL_directions_round_trip",
    "Alta.fromCartesian_aborts",
    "Alta.SPHERICAL_coordinates_round_trip"
   ],
   "note": "For pairs whose z sum is non negative; the code aborts on the others (fromCartesian_aborts)."
  },
  {
   "property": "C09",
   "status": "partial",
   "theorems": [
    "Alta.ISOTROPIC_TV_TL_DPHI_round_trip",
    "Alta.RUSIN_TH_TD_PD_round_trip",
    "Alta.ISOTROPIC_TL_TV_PROJ_DPHI_mirrors",
    "Alta.ISOTROPIC_TL_TV_PROJ_DPHI_not_rotation",
    "Alta.NEUMANN_3D_swaps",
    "Alta.STARK_3D_swaps",
    "Alta.NEUMANN_STARK_not_rotation",
    "Alta.SCHLICK_TL_TK_PROJ_DPHI_mirrors",
    "Alta.RETRO_TL_TVL_PROJ_DPHI_mirrors",
    "Alta.RETRO_TL_TVL_PROJ_DPHI_wrong_side"
   ],
   "note": "True for ISOTROPIC_TV_TL_DPHI and RUSIN_TH_TD_PD; for the others the exact effect (mirror image or exchange of view and light) is proved with a refutation of the full claim."
  },
  {
   "property": "C10",
   "status": "partial",
   "theorems": [
    "Alta.lossy_round_trip_partial",
    "Alta.COS_TLR_round_trip_negates",
    "Alta.COS_TK_round_trip_fails",
    "Alta.SCHLICK_VK_round_trip_fails",
    "Alta.STEREOGRAPHIC_round_trip_fails"
   ],
   "note": "Refuted for COS_TLR, COS_TK, SCHLICK_VK and STEREOGRAPHIC; proved for the others."
  },
  {
   "property": "C11",
   "status": "proved",
   "theorems": [
    "Alta.reciprocity",
    "Alta.reciprocity_half_angle"
   ],
   "note": ""
  },
  {
   "property": "C12",
   "status": "partial",
   "theorems": [
    "Alta.rotation_invariant",
    "Alta.rotation_invariant_azimuth",
    "Alta.rotation_invariant_mod",
    "Alta.COS_TLR_not_isotropic",
    "Alta.ISOTROPIC_TL_TV_PROJ_DPHI_normal_light"
   ],
   "note": "Exact for the coordinates without azimuth; for the others wherever the measured azimuths exist. False for COS_TLR and, with the light along the normal, for ISOTROPIC_TL_TV_PROJ_DPHI (refuted)."
  },
  {
   "property": "C13",
   "status": "proved",
   "theorems": [
    "Alta.fromCartesian_defined",
    "Alta.grazing_undefined"
   ],
   "note": "All named parametrizations; the only undefined case (V = L grazing, COS_TK and SCHLICK_TL_TK_PROJ_DPHI) is excluded by hypothesis and proved undefined."
  },
  {
   "property": "C14",
   "status": "proved",
   "theorems": [
    "Alta.isAboveHemisphere_iff",
    "Alta.isAboveHemisphere_outside"
   ],
   "note": ""
  },
  {
   "property": "C15",
   "status": "partial",
   "theorems": [
    "Alta.convertOutput_isSome",
    "Alta.convertOutput_copy",
    "Alta.convertOutput_average_partial",
    "Alta.convertOutput_average_stale"
   ],
   "note": "The average accumulates onto the previous content of the output cell: true iff that content is zero."
  },
  {
   "property": "C16",
   "status": "proved",
   "theorems": [
    "Alta.parseArgs_spec",
    "Alta.parseArgs_defined",
    "Alta.parseArgs_value",
    "Alta.parseArgs_items",
    "Alta.parseArgs_negative",
    "Alta.parseArgs_empty_word"
   ],
   "note": "For every argv without empty words. Limits proved: a negative number is not read as a value (parseArgs_negative), an empty word inside an unclosed bracket makes the parser read before the start of a string (parseArgs_empty_word)."
  },
  {
   "property": "C17",
   "status": "proved",
   "theorems": [
    "Alta.get_default",
    "Alta.get_integer",
    "Alta.get_decimal",
    "Alta.get_flag"
   ],
   "note": ""
  },
  {
   "property": "C18",
   "status": "proved",
   "theorems": [
    "Alta.getVecStr_list",
    "Alta.getVec_list",
    "Alta.getVec_decimals",
    "Alta.getVec_scalar",
    "Alta.getVec_unclosed"
   ],
   "note": ""
  },
  {
   "property": "C19",
   "status": "proved",
   "theorems": [
    "Alta.update_spec"
   ],
   "note": ""
  },
  {
   "property": "C20",
   "status": "partial",
   "theorems": [
    "Alta.createArguments_getCmd",
    "Alta.createArguments_negative"
   ],
   "note": "For maps whose names are words and whose values do not look like options; a negative number is lost (proved)."
  },
  {
   "property": "C21",
   "status": "proved",
   "theorems": [
    "Alta.parseHeader_spec",
    "Alta.parseHeader_rest",
    "Alta.parseHeader_HEADER_END"
   ],
   "note": "parseHeader_HEADER_END records that the documented closing line is not recognised."
  },
  {
   "property": "C22",
   "status": "partial",
   "theorems": [
    "Alta.binary_round_trip_partial",
    "Alta.binary_other_data_partial",
    "Alta.binary_truncated",
    "Alta.binary_round_trip_corrupts"
   ],
   "note": "Holds unless the first byte of the data is '#': the header reader then swallows data. binary_round_trip_corrupts refutes the full statement."
  },
  {
   "property": "C23",
   "status": "proved",
   "theorems": [
    "Alta.loadText_spec",
    "Alta.loadRows_unterminated",
    "Alta.loadText_example"
   ],
   "note": "For every well formed body (rows with enough numbers), filtering options, interval options and cosine correction included."
  },
  {
   "property": "C24",
   "status": "partial",
   "theorems": [
    "Alta.loaded_interval_encloses",
    "Alta.getSegment_none",
    "Alta.getSegment_asymmetrical",
    "Alta.makeSegment_spec",
    "Alta.makeSegment_encloses",
    "Alta.getSegment_symmetrical",
    "Alta.set_value_leaves_interval",
    "Alta.makeSegment_relative_negative",
    "Alta.intervalBounds_negative",
    "Alta.intervalBounds_greatest",
    "Alta.rowWidths_first_only"
   ],
   "note": "Proved for non negative widths (and non negative values when relative); the cases where the code breaks it (symmetrical data, relative widths of negative values, value overwritten alone) are proved as limits."
  },
  {
   "property": "C25",
   "status": "proved",
   "theorems": [
    "Alta.set_get",
    "Alta.set_refused",
    "Alta.get_isSome"
   ],
   "note": ""
  },
  {
   "property": "C26",
   "status": "partial",
   "theorems": [
    "Alta.bounds_exact",
    "Alta.set_leaves_bounds"
   ],
   "note": "Exact when the data set is built; set() does not update the bounds (proved limit)."
  },
  {
   "property": "C27",
   "status": "proved",
   "theorems": [
    "Alta.equals_iff",
    "Alta.equals_refl",
    "Alta.equals_symm",
    "Alta.equals_zero",
    "Alta.equals_default"
   ],
   "note": "equals_default records that the default epsilon is 1."
  },
  {
   "property": "C51",
   "status": "proved",
   "theorems": [
    "Alta.text_round_trip",
    "Alta.text_round_trip_equals"
   ],
   "note": "Number printing is a parameter; samples beyond the largest float are dropped by the loader, hence the hypothesis."
  },
  {
   "property": "C28",
   "status": "proved",
   "theorems": [
    "Alta.compound_value",
    "Alta.compound_parametrization"
   ],
   "note": "For components respecting the nonlinear_function contract (Cls.Lawful) with equal numbers of channels, however nested."
  },
  {
   "property": "C29",
   "status": "proved",
   "theorems": [
    "Alta.parameters_round_trip",
    "Alta.composition_parameters_length",
    "Alta.composition_params",
    "Alta.compound_members"
   ],
   "note": ""
  },
  {
   "property": "C30",
   "status": "proved",
   "theorems": [
    "Alta.compound_jacobian",
    "Alta.Fn.jacobian_correct"
   ],
   "note": ""
  },
  {
   "property": "C31",
   "status": "proved",
   "theorems": [
    "Alta.diffuseBlinnFresnel_correct",
    "Alta.product_value",
    "Alta.product_value_grey",
    "Alta.product_parameters",
    "Alta.product_jacobian",
    "Alta.product_parametrization"
   ],
   "note": "The Jacobian for factors with the same number of channels."
  },
  {
   "property": "C37",
   "status": "partial",
   "theorems": [
    "Alta.blinn_value",
    "Alta.blinn_jacobian",
    "Alta.retroblinn_jacobian_partial",
    "Alta.retroblinn_jacobian_behind"
   ],
   "note": "The Blinn lobe: proved in full. The retro Blinn variant: right for positive cosines, refuted for negative ones."
  },
  {
   "property": "C38",
   "status": "partial",
   "theorems": [
    "Alta.schlickFresnel_value",
    "Alta.schlickFresnel_jacobian",
    "Alta.retroSchlick_value",
    "Alta.retroSchlick_jacobian",
    "Alta.dotVH_cartesian",
    "Alta.normalizedSchlick_derivative",
    "Alta.normalizedSchlick_jacobian_wrong"
   ],
   "note": "The Schlick and retro Schlick factors: proved in full. The normalised variant has a wrong Jacobian (refuted)."
  },
  {
   "property": "C39",
   "status": "partial",
   "theorems": [
    "Alta.schlickMasking_value",
    "Alta.schlickMasking_jacobian",
    "Alta.smithA_nonneg",
    "Alta.smithTerm_range",
    "Alta.smith_value",
    "Alta.walterTerm_range",
    "Alta.smith_jacobian_wrong",
    "Alta.shadowTerm_range",
    "Alta.shadowTerm_exceeds_one",
    "Alta.walterSmith_jacobian_wrong"
   ],
   "note": "Schlick masking in full; Smith: the value; its Jacobian, and that of the Walter variant, are refuted, as is the bound 1 for the Walter term (it reaches 1.0014 at most)."
  },
  {
   "property": "C40",
   "status": "partial",
   "theorems": [
    "Alta.abc_jacobian_partial",
    "Alta.abc_jacobian_outside",
    "Alta.sg_jacobian_partial",
    "Alta.isoLafortune_jacobian_partial",
    "Alta.lafortune_jacobian_partial",
    "Alta.beckmann_jacobian_columns",
    "Alta.beckmann_jacobian_partial",
    "Alta.beckmann_jacobian_wrong",
    "Alta.retrobeckmann_jacobian_columns",
    "Alta.ward_jacobian_columns",
    "Alta.ward_jacobian_wrong",
    "Alta.sgd_jacobian_wrong"
   ],
   "note": "True for ABC, spherical Gaussian and the Lafortune lobes where the lobes are differentiable; false for the roughness of Beckmann and Ward and for the shifted gamma lobe: the exact discrepancy is proved."
  },
  {
   "property": "C41",
   "status": "partial",
   "theorems": [
    "Alta.lobe_parameters_round_trip",
    "Alta.diffuse_parameters_size"
   ],
   "note": "All lobes except the diffuse one (its parameters() vector is not empty although nbParameters() is 0, proved) and retroyoo (see C77)."
  },
  {
   "property": "C32",
   "status": "proved",
   "theorems": [
    "Alta.basis_enumerates",
    "Alta.basis_degree",
    "Alta.estimateDk_choose",
    "Alta.basis_first"
   ],
   "note": ""
  },
  {
   "property": "C33",
   "status": "proved",
   "theorems": [
    "Alta.rational_value",
    "Alta.update_value",
    "Alta.resize_update_value",
    "Alta.update_self",
    "Alta.copy_value",
    "Alta.resize_standard",
    "Alta.mkRat1_standard",
    "Alta.update_longer_undefined",
    "Alta.channel_domain"
   ],
   "note": "On functions whose coefficients have the exponents of the enumeration (every object built or resized by the class; update with a longer vector breaks it, update_longer_undefined)."
  },
  {
   "property": "C34",
   "status": "proved",
   "theorems": [
    "Alta.rational_file_round_trip",
    "Alta.rational_file_same_value",
    "Alta.readFrom_same_coefficients",
    "Alta.rational_file_missing_channel"
   ],
   "note": "A function with a channel that was never allocated is saved without that channel and cannot be loaded (rational_file_missing_channel)."
  },
  {
   "property": "C35",
   "status": "proved",
   "theorems": [
    "Alta.chebychev_eq",
    "Alta.chebychev_bounded",
    "Alta.ratKind_classical",
    "Alta.ortho_value",
    "Alta.basis_not_in_file"
   ],
   "note": "T_n is Mathlib's polynomial."
  },
  {
   "property": "C36",
   "status": "proved",
   "theorems": [
    "Alta.legendre_eq",
    "Alta.legendreCos_eq",
    "Alta.legendre_characterization",
    "Alta.ratKind_classical",
    "Alta.ortho_value",
    "Alta.cosine_value",
    "Alta.power_value"
   ],
   "note": "P_n is Mathlib's shiftedLegendre moved to [-1, 1]; the closed forms of the cosine plugin are the same polynomials."
  },
  {
   "property": "C42",
   "status": "proved",
   "theorems": [
    "Alta.metrics_value",
    "Alta.metrics_consistent",
    "Alta.metrics_symmetric",
    "Alta.metrics_zero",
    "Alta.norms_ordered",
    "Alta.norms_zero"
   ],
   "note": "Without mask; see C52 for masks."
  },
  {
   "property": "C52",
   "status": "partial",
   "theorems": [
    "Alta.metrics_mask_undefined",
    "Alta.metrics_mask_all"
   ],
   "note": "The property does not hold: the number of rows is the number of zeros of the mask, and rows are written at the index of the sample (proved)."
  },
  {
   "property": "C43",
   "status": "proved",
   "theorems": [
    "Alta.merl_cells",
    "Alta.merl_index",
    "Alta.merl_value",
    "Alta.merl_get",
    "Alta.merl_value_get",
    "Alta.merl_set",
    "Alta.merl_mirror",
    "Alta.merl_file_round_trip",
    "Alta.merl_swap",
    "Alta.merl_not_reciprocal"
   ],
   "note": "Model of merl.cpp. merl_swap/merl_not_reciprocal show a limit: phi_d is mirrored instead of wrapped by pi, so swapping the directions may change the value."
  },
  {
   "property": "C44",
   "status": "proved",
   "theorems": [
    "Alta.utia_cells",
    "Alta.utia_value",
    "Alta.utia_below",
    "Alta.utia_get",
    "Alta.utia_value_get",
    "Alta.utia_bounds",
    "Alta.utia_periodic",
    "Alta.utia_set",
    "Alta.utia_vecToIndex",
    "Alta.utia_load",
    "Alta.utia_negative_theta",
    "Alta.utia_extrapolates",
    "Alta.utia_save_load_limit"
   ],
   "note": "Model of utia.cpp (binary format; float rounding not modelled). Limits proved: a negative elevation reads before the table, values beyond 75 degrees are extrapolated, save writes text that load_data reads as bytes."
  },
  {
   "property": "C45",
   "status": "partial",
   "theorems": [
    "Alta.grid_index",
    "Alta.grid_indices_rank",
    "Alta.grid_rank_surjective",
    "Alta.grid_rank_injective",
    "Alta.grid_indices",
    "Alta.grid_abscissa",
    "Alta.grid_init",
    "Alta.grid_position",
    "Alta.multilinear_const",
    "Alta.grid_value",
    "Alta.grid_value_inner",
    "Alta.grid_bounds",
    "Alta.grid_value_node",
    "Alta.grid_value_inner_node",
    "Alta.grid_domain",
    "Alta.grid_value_overrun",
    "Alta.grid_value_max",
    "Alta.grid_domain_rusin"
   ],
   "note": "The statement holds below the maxima of the domain; on the upper boundary it is refuted: value reads after the storage (grid_value_max), and the conversion to RUSIN_TH_TD_PD leaves the domain (grid_domain_rusin)."
  },
  {
   "property": "C46",
   "status": "proved",
   "theorems": [
    "Alta.rbf_value",
    "Alta.rbf_bounds",
    "Alta.rbf_constant",
    "Alta.rbf_empty",
    "Alta.rbf_near",
    "Alta.rbf_not_exact"
   ],
   "note": "Model of the RBF interpolant; the neighbours found by FLANN are an arbitrary argument."
  },
  {
   "property": "C47",
   "status": "proved",
   "theorems": [
    "Alta.searchPath_spec",
    "Alta.entries_exist",
    "Alta.openLibrary_spec",
    "Alta.absent_plugin",
    "Alta.provided_by_named_library",
    "Alta.libraryName_spec",
    "Alta.libraryName_short",
    "Alta.libraryName_so",
    "Alta.sticky_dlerror_skips"
   ],
   "note": "Limits proved: names of less than two characters throw, a name ending with so is not decorated, and a dlerror keeping old errors (POSIX permits it) makes libraries be skipped. get_function(args) is in C55."
  },
  {
   "property": "C48",
   "status": "partial",
   "theorems": [
    "Alta.timer_elapsed",
    "Alta.timer_reset_stop",
    "Alta.timer_stop_twice",
    "Alta.timer_start_twice",
    "Alta.timer_print"
   ],
   "note": "The elapsed time: proved. The printed time is wrong from six minutes on (timer_print)."
  },
  {
   "property": "C49",
   "status": "proved",
   "theorems": [
    "Alta.constraints_exact",
    "Alta.constraints_sound",
    "Alta.constraints_complete",
    "Alta.constraints_need_scaling",
    "Alta.fillMatrix_spec",
    "Alta.program_spec"
   ],
   "note": "Up to a positive scaling of the coefficients, as the constraints have an offset delta*||c||; they also force a negative denominator. The documented contract of the external solver QuadProg++ (CI^T x + ci0 >= 0) is the meaning of a constraint."
  },
  {
   "property": "C53",
   "status": "proved",
   "theorems": [
    "Alta.quadprog_fit_sound",
    "Alta.quadprog_fit_complete",
    "Alta.fitChannel_spec",
    "Alta.exact_value_not_fittable",
    "Alta.twoPoints_fitted"
   ],
   "note": "The solver QuadProg++ is a parameter with its documented contract (Solver.Sound, Solver.Complete) as hypothesis; idealSolver shows that the contract can be met."
  },
  {
   "property": "C54",
   "status": "proved",
   "theorems": [
    "Alta.parallel_fit_all_schedules",
    "Alta.parallel_fit_schedule_independent",
    "Alta.parallel_fit_complete_small",
    "Alta.testConstraints_spec",
    "Alta.parallel_gives_up",
    "Alta.test_accepts_nan",
    "Alta.conversion_leaves_junk"
   ],
   "note": "A schedule is the order in which the iterations reach the critical section. Limits proved: the last training sample is never given to the solver, a function that is nowhere a number passes the test, the automatic conversion of other data leaves most of its buffer unwritten. --nb-starting-points is ignored by the code."
  },
  {
   "property": "C50",
   "status": "proved",
   "theorems": [
    "Alta.data2data_rows",
    "Alta.data2data_succeeds",
    "Alta.data2data_identity",
    "Alta.interleaving_spec",
    "Alta.convertPoint_spec"
   ],
   "note": "Limits visible in data2data_rows: rows below the hemisphere stay in the output as zero rows, and the confidence intervals of the input are lost (set to zero)."
  },
  {
   "property": "C55",
   "status": "proved",
   "theorems": [
    "Alta.getFunction_term",
    "Alta.getFunction_sum",
    "Alta.getFunction_sum_fresnel",
    "Alta.sumText_cmdValue",
    "Alta.getFunction_line",
    "Alta.getFunction_absent",
    "Alta.getFunction_member_fails",
    "Alta.getFunction_empty_sum",
    "Alta.getFunction_none"
   ],
   "note": "Termination for all arguments is part of the definition of getFunction (recursion on the length of the arguments). Limits proved: a missing plugin gives a rational function instead of NULL, a missing plugin in a list or an empty list ends the program."
  },
  {
   "property": "C56",
   "status": "partial",
   "theorems": [
    "Alta.loadFunction_saveFunction",
    "Alta.load_saved_plugin",
    "Alta.load_saved_sum",
    "Alta.load_saved_exact",
    "Alta.FT.load_false",
    "Alta.withOutput_value",
    "Alta.blinn_readsBack",
    "Alta.retroblinn_readsBack",
    "Alta.beckmann_readsBack",
    "Alta.ward_readsBack",
    "Alta.abc_readsBack",
    "Alta.diffuse_readsBack",
    "Alta.sg_readsBack",
    "Alta.isoLafortune_readsBack",
    "Alta.lafortune_readsBack",
    "Alta.schlickFresnel_readsBack",
    "Alta.normalizedSchlick_readsBack",
    "Alta.retroSchlick_readsBack",
    "Alta.schlickMasking_readsBack",
    "Alta.smith_readsBack",
    "Alta.walterSmith_readsBack",
    "Alta.sgd_not_saved",
    "Alta.lobe_saved",
    "Alta.retrobeckmann_inverted",
    "Alta.lafortune_exponents_lost",
    "Alta.sg_type_not_kept",
    "Alta.compound_partly_loaded",
    "Alta.mixed_sum_not_kept",
    "Alta.no_name_not_loaded",
    "Alta.no_numbers_loaded",
    "Alta.sgd_file_read",
    "Alta.FT.load_failed"
   ],
   "note": "Proved for all the plugins but four cases in which the code does not have the property, each proved: a function with an sgd lobe cannot be saved (the program ends), retrobeckmann comes back with its other parametrization, lafortune loses the exponents of its lobes, the type of a spherical gaussian is not kept; a sum that mixes a plugin keeping the parametrization of the data with one that sets its own is not kept (mixed_sum_not_kept), and a sum is loaded as soon as one member is (compound_partly_loaded). The output parametrization is not in the file. retroyoo: see C77."
  },
  {
   "property": "C57",
   "status": "partial",
   "theorems": [
    "Alta.nlopt_objective",
    "Alta.nlopt_gradient",
    "Alta.ipopt_objective",
    "Alta.ipopt_gradient",
    "Alta.eigen_residuals",
    "Alta.eigen_objective",
    "Alta.weightedSumSquares_plain",
    "Alta.eigen_derivatives",
    "Alta.eigen_out_of_bounds",
    "Alta.ceres_residuals",
    "Alta.ceres_log_residuals",
    "Alta.ceres_derivatives",
    "Alta.ceres_out_of_bounds",
    "Alta.ceres_log_derivative_wrong",
    "Alta.ceres_log_fit_example",
    "Alta.lobe_reads",
    "Alta.compound_reads",
    "Alta.product_reads",
    "Alta.jacobianAtSamples_of_leaves",
    "Alta.blinn_fit"
   ],
   "note": "Proved, but for Ceres with --log-fit, where the code does not have the property: the derivative is divided by 1 + data instead of 1 + value (ceres_log_derivative_wrong says exactly when it is right)."
  },
  {
   "property": "C58",
   "status": "partial",
   "theorems": [
    "Alta.bootstrap_vector_product",
    "Alta.bootstrap_vector_sum",
    "Alta.bootstrap_vector_lobe",
    "Alta.bootstrap_file",
    "Alta.bootstrap_each",
    "Alta.startable_iff",
    "Alta.lobe_forgets",
    "Alta.bootstrap_forgets",
    "Alta.bootstrap_keeps",
    "Alta.first_guess",
    "Alta.first_guess_beckmann",
    "Alta.first_guess_full_lafortune",
    "Alta.first_guess_gaussian",
    "Alta.first_guess_lafortune",
    "Alta.diffuse_start",
    "Alta.diffuse_start_cosine",
    "Alta.sgd_not_started",
    "Alta.fixed_member_not_started",
    "Alta.fixed_part_not_started",
    "Alta.diffuse_first_ignored",
    "Alta.diffuse_option_ends",
    "Alta.lobe_file_ignored",
    "Alta.missing_file",
    "Alta.headerless_file"
   ],
   "note": "Proved but for the cases where the code does not have the property, each proved: an sgd lobe keeps the coefficients found in memory, with a vector the fixed members and parts keep theirs, a Beckmann or sgd lobe alone is never read from a saved file, the first sample is ignored for cosine weighted data, the option ends the program for a diffuse term alone, a missing file is ignored by sums and products, a file without the end of header line is read forever. A sum with a vector is shown to have these parameters when its members without parameters are diffuse terms or fully fixed products."
  },
  {
   "property": "C59",
   "status": "proved",
   "theorems": [
    "Alta.bounds_ordered",
    "Alta.start_within_bounds",
    "Alta.vector_not_checked"
   ],
   "note": "Limit: a vector given with --bootstrap is not compared with the bounds (vector_not_checked)."
  },
  {
   "property": "C60",
   "status": "partial",
   "theorems": [
    "Alta.eigen_fit_outcome",
    "Alta.eigen_fit_within_bounds",
    "Alta.eigen_fit_not_worse",
    "Alta.eigen_fit_false",
    "Alta.eigen_fit_returns",
    "Alta.ceres_fit_outcome",
    "Alta.ceres_fit_within_bounds",
    "Alta.ceres_fit_not_worse",
    "Alta.nlopt_fit_outcome",
    "Alta.nlopt_fit_within_bounds",
    "Alta.nlopt_fit_not_worse",
    "Alta.nlopt_fit_false",
    "Alta.ipopt_fit_outcome",
    "Alta.ipopt_fit_within_bounds",
    "Alta.ipopt_fit_not_worse",
    "Alta.fit_keeps",
    "Alta.fit_needs_nonlinear",
    "Alta.betterNlopt_descends",
    "Alta.betterEigen_descends",
    "Alta.failed_fit_changes",
    "Alta.success_without_solution",
    "Alta.ceres_keeps_diffuse"
   ],
   "note": "Proved for all solvers that make a finite number of calls; the exceptions of the code are proved too: Ceres does not put a function without parameters (a diffuse term alone) at its starting point (ceres_keeps_diffuse), Ceres reports success when the solution is not usable and Ipopt when it stopped before a solution (success_without_solution). A failed fit leaves the parameters of the last evaluation (failed_fit_changes). What is expected of the solvers is stated in Spec/NonlinearFitRun and met by the solvers of the examples."
  },
  {
   "property": "C61",
   "status": "partial",
   "theorems": [
    "Alta.start_options",
    "Alta.eigen_options",
    "Alta.ceres_options",
    "Alta.nlopt_options",
    "Alta.ipopt_options",
    "Alta.nlopt_optimizer",
    "Alta.nlopt_criteria",
    "Alta.ipopt_criteria",
    "Alta.ceres_criteria",
    "Alta.documented_without_effect",
    "Alta.nlopt_documented_defaults",
    "Alta.ceres_documented_tolerances"
   ],
   "note": "A fit depends on the listed options only, and each of them does what its code says. The code does not have the rest of the property: three documented options have no effect (documented_without_effect), NLopt gets no default number of evaluations and never a relative tolerance on the function (nlopt_documented_defaults), the gradient and parameter tolerances of Ceres replace the one on the function (ceres_documented_tolerances)."
  },
  {
   "property": "C62",
   "status": "partial",
   "theorems": [
    "Alta.l2_distance",
    "Alta.l2_empty",
    "Alta.l2_zero_iff",
    "Alta.linf_distance",
    "Alta.l2_le_linf",
    "Alta.printed_statistics",
    "Alta.l2_of_objective",
    "Alta.nlopt_fit_l2",
    "Alta.printed_variance_wrong"
   ],
   "note": "Proved but for the printed variance, where the code does not have the property: it is too large by four times the square of the mean (printed_statistics, printed_variance_wrong). The distance of an empty data set is refused by an assertion (l2_empty)."
  },
  {
   "property": "C63",
   "status": "partial",
   "theorems": [
    "Alta.reciprocal_of_coordinates",
    "Alta.lobe_reciprocal",
    "Alta.composition_reciprocal",
    "Alta.made_product_shared",
    "Alta.made_compound_shared",
    "Alta.smith_not_reciprocal",
    "Alta.retrobeckmann_not_reciprocal",
    "Alta.sg_moment_not_reciprocal",
    "Alta.retroSchlick_not_reciprocal"
   ],
   "note": "Proved for every composition of objects that are meant reciprocal (LobeObj.MeantReciprocal). The code does not have the property for the Smith term, the retro Beckmann lobe with its default cosine, the moment version of the spherical Gaussian, and the retro Schlick term when both directions are grazing: each refutation is proved. retroyoo: see C77."
  },
  {
   "property": "C64",
   "status": "partial",
   "theorems": [
    "Alta.lobe_nonnegative",
    "Alta.composition_nonnegative",
    "Alta.bounded_nonnegative",
    "Alta.blinn_negative",
    "Alta.sgd_negative"
   ],
   "note": "Proved with the sign of the coefficients that the bounds do not cover (NonNegativeFactors) and when nothing is fixed. The code does not have the property for Blinn, retro Blinn and the shifted gamma lobe, whose bounds permit negative values (blinn_negative, sgd_negative)."
  },
  {
   "property": "C65",
   "status": "partial",
   "theorems": [
    "Alta.fit2stat_norms",
    "Alta.fit2stat_run",
    "Alta.mse_is_l2",
    "Alta.fit2stat_zero",
    "Alta.statData_copies",
    "Alta.statData_average_stale",
    "Alta.statData_not_both",
    "Alta.fit2stat_needs_cartesian",
    "Alta.light_weight_is_view",
    "Alta.black_sample_not_black"
   ],
   "note": "The norms are proved for all functions and data with the same values, the weighted errors for functions on the two directions. The code does not have the rest of the property, each exception is proved: the cosine called light is the one of the view and the file has the light value in place of the product (fit2stat_run, light_weight_is_view), any other parametrization of the function ends the program before the file is written (fit2stat_needs_cartesian), inputs and outputs are never converted together (statData_not_both), the mean of several channels contains that of the previous sample (statData_average_stale)."
  },
  {
   "property": "C66",
   "status": "proved",
   "theorems": [
    "Alta.data2moments_spec",
    "Alta.sum_sampleIndices",
    "Alta.cells_integral",
    "Alta.moments_consistent",
    "Alta.moments_affine",
    "Alta.data2moments_defaults",
    "Alta.moments_constant",
    "Alta.data2moments_overflow",
    "Alta.data2moments_five_dimensions",
    "Alta.data2moments_one_dimension"
   ],
   "note": "Limits proved: constant data have a moment of order 0 equal to 0, by which the others are divided; with the default 100 samples per dimension, five dimensions overflow an int; data with one dimension need the option dim. The fourth order moments and the cumulants are computed but never printed, and are not modelled."
  },
  {
   "property": "C67",
   "status": "proved",
   "theorems": [
    "Alta.brdf2data_rows",
    "Alta.export_distance",
    "Alta.export_twice",
    "Alta.export_diff_sum",
    "Alta.withValues_ready",
    "Alta.export_out_of_interval"
   ],
   "note": "Limit proved: the confidence intervals are those of the template, so that an exported value may lie outside of its interval (export_out_of_interval). The data plugins that may replace the default data object are not modelled."
  },
  {
   "property": "C68",
   "status": "partial",
   "theorems": [
    "Alta.data_plot",
    "Alta.plot_is_export",
    "Alta.data_plot_cos",
    "Alta.cos_plot_half",
    "Alta.data_plot_empty",
    "Alta.error_plot_zero",
    "Alta.polar_plot",
    "Alta.polar_plot_spherical",
    "Alta.polar_directions",
    "Alta.polar_plot_odd",
    "Alta.polar_plot_unknown"
   ],
   "note": "Proved but for cos-plot, where the code does not have the property: the values are multiplied by the product of both cosines (data_plot_cos), and for a function of the half angle by the square of its coordinate (cos_plot_half); the polar plot does not read the option. Limits proved: an odd number of samples gives one line less, a function without a parametrization has no polar plot. The text of the numbers is not modelled."
  },
  {
   "property": "C69",
   "status": "partial",
   "theorems": [
    "Alta.data2brdf_outcome",
    "Alta.data2brdf_plugin",
    "Alta.data2brdf_sum",
    "Alta.data2brdf_nlopt",
    "Alta.change_param_aborts",
    "Alta.channels_abort",
    "Alta.args_saved"
   ],
   "note": "Proved for one plugin and for sums of plugins with the four nonlinear fitters, for the classes that a file holds whole (WrittenWhole: not retrobeckmann and sgd, C56). The fitters of rational functions: see C81. Limits proved: change-param ends the program as soon as the data have samples (change_param_aborts), another number of channels aborts (channels_abort)."
  },
  {
   "property": "C70",
   "status": "partial",
   "theorems": [
    "Alta.eigen_rational_optimal",
    "Alta.eigen_rational_exact",
    "Alta.eigen_rational_succeeds",
    "Alta.IsQuotient.channel",
    "Alta.twoPoints_eigen",
    "Alta.eigen_rational_undefined"
   ],
   "note": "The optimum is proved for all data. Exactness at a sample needs a denominator that is not null there: the code does not check it, and a sound decomposition may return such a denominator, with success reported (eigen_rational_undefined). The decomposition of Eigen is a parameter whose promises (orthonormal eigenvectors) are stated in EigenSystem.Sound; one that keeps them exists (idealEigen_sound)."
  },
  {
   "property": "C71",
   "status": "partial",
   "theorems": [
    "Alta.least_square_optimal",
    "Alta.least_square_reports",
    "Alta.least_square_constant",
    "Alta.least_square_inverse",
    "Alta.least_square_polynomial",
    "Alta.least_square_succeeds",
    "Alta.least_square_zero_data",
    "Alta.twoPoints_least"
   ],
   "note": "Proved with at least one iteration (0 iterations leave the denominator uninitialised). Success is proved for a denominator of size 1 when the sum of the cubes of the values is not null; the code does not have it in general: a channel whose values are all null makes it divide by zero (least_square_zero_data). The inverse of a polynomial is given back with one iteration, the default."
  },
  {
   "property": "C72",
   "status": "partial",
   "theorems": [
    "Alta.exported_shader_value_partial",
    "Alta.exported_shader_exact_partial",
    "Alta.exported_explorer",
    "Alta.single_function_not_shader",
    "Alta.repeated_class_not_shader",
    "Alta.smith_stops",
    "Alta.sgd_stops",
    "Alta.masking_parentheses",
    "Alta.masking_not_shader",
    "Alta.walterSmith_not_shader",
    "Alta.abc_shader_value",
    "Alta.abc_shader_wrong",
    "Alta.sgRetro_shader_value",
    "Alta.sgRetro_shader_wrong",
    "Alta.sgMoment_shader_value",
    "Alta.sgMoment_object_value",
    "Alta.sgMoment_shader_wrong",
    "Alta.retrobeckmann_shader_value",
    "Alta.retrobeckmann_shader_wrong",
    "Alta.beckmann_shader_value",
    "Alta.beckmann_shader_wrong"
   ],
   "note": "Proved for sums whose plugin objects are of different classes, among blinn, retroblinn, ward, diffuse, spherical gaussian (Mirror, Half, Back), isotropic lafortune, lafortune, schlick, normalized schlick and retro schlick; products of objects with one lobe. The reader of the language (Spec/Glsl: words, grammar, values over the reals) is part of the specification. The code does not have the property elsewhere: an object or a product exported alone is not a program (single_function_not_shader), nor is a sum with two objects of the same class (repeated_class_not_shader), the classes smith and sgd end the export (smith_stops, sgd_stops); a function with an object of the class schlick masking or walter smith is never a program (masking_not_shader, walterSmith_not_shader); the shaders of the classes abc, beckmann, retrobeckmann and of the types Retro and Moment of the spherical gaussian are programs that compute something else (abc_shader_wrong, beckmann_shader_wrong, retrobeckmann_shader_wrong, sgRetro_shader_wrong, sgMoment_shader_wrong); the coefficient ks of retroblinn and kd of lafortune are lost and pi is written with the digits of the other numbers (LobeObj.exported). The export of a rational function ends the program (rational_shader_stops, C79)."
  },
  {
   "property": "C73",
   "status": "partial",
   "theorems": [
    "Alta.slice_get",
    "Alta.slice_abscissae_distinct",
    "Alta.slice_value_nearest_partial",
    "Alta.slice_value_of_sample",
    "Alta.slice_set_get",
    "Alta.slice_save_load",
    "Alta.slice_missing_channel",
    "Alta.slice_outside_uninitialised",
    "Alta.slice_low_azimuth",
    "Alta.slice_upper_bound",
    "Alta.slice_lower_bound_untested",
    "Alta.slice_plane"
   ],
   "note": "Proved for the points below the upper bounds of the domain and, in the azimuth-first parametrizations, for azimuths not below -90 degrees. The code does not have the rest: at the upper bound of the first coordinate the sample of the other end of the next line is read, or memory after the storage (slice_upper_bound); the azimuth is compared with the lower bound of another coordinate, so that below -90 degrees no sample can be read (slice_low_azimuth) and the lower bound of the coordinate itself is not tested (slice_lower_bound_untested); outside of the domain the result is not initialised (slice_outside_uninitialised); a channel that is missing leaves the earlier content of memory (slice_missing_channel). Not modelled: the coding of EXR files, and a file that cannot be read (the sizes of the image are then not initialised)."
  },
  {
   "property": "C74",
   "status": "proved",
   "theorems": [
    "Alta.astm_header",
    "Alta.astm_load",
    "Alta.astm_load_unterminated",
    "Alta.astm_load_rgb",
    "Alta.astm_missing_rows",
    "Alta.astm_missing_rows_unterminated",
    "Alta.astm_points_undeclared",
    "Alta.astm_names_order",
    "Alta.astm_exchanged_columns"
   ],
   "note": "Numbers are exact. Beyond the claim: the names of the columns are only counted, so that a file with its columns in another order is read with the directions exchanged (astm_names_order, astm_exchanged_columns); with fewer rows than declared the program never ends, or stops on an assertion if the last line is not terminated (astm_missing_rows, astm_missing_rows_unterminated); rows with a missing number are not modelled (the rest of the row is indeterminate)."
  },
  {
   "property": "C75",
   "status": "partial",
   "theorems": [
    "Alta.python_sum",
    "Alta.python_product",
    "Alta.python_sum_same",
    "Alta.python_frame",
    "Alta.python_set_get",
    "Alta.python_set_refused",
    "Alta.python_make",
    "Alta.python_parts",
    "Alta.python_sum_follows",
    "Alta.python_add_outcome",
    "Alta.python_shared_sum"
   ],
   "note": "Proved for every script; set followed by get needs that no plugin object occurs twice in the function. The code does not have it otherwise: both operands of f + f are the same object, and set gives it the second half of the vector for both (python_shared_sum). load and the fitters within a session are not modelled."
  },
  {
   "property": "C76",
   "status": "partial",
   "theorems": [
    "Alta.python_data2data",
    "Alta.python_data2data_same",
    "Alta.python_interval_lost",
    "Alta.python_average_undefined",
    "Alta.python_brdf2data",
    "Alta.python_brdf2data_channels"
   ],
   "note": "The samples are proved. The code does not have the rest: every interval of the result is [0, 0] in place of the values around the sample (python_interval_lost), the mean of several channels has memory added to it and can be any number (python_average_undefined), a function with more channels than the data is cut and one with fewer is read after its end (python_brdf2data_channels). The input of brdf2data is a data object of the default class."
  },
  {
   "property": "C77",
   "status": "partial",
   "theorems": [
    "Alta.yoo_lawful",
    "Alta.yoo_bootstrap",
    "Alta.yoo_value",
    "Alta.yoo_value_undefined",
    "Alta.yoo_ignores_light",
    "Alta.yoo_negative",
    "Alta.yoo_wrong_jacobian",
    "Alta.yoo_not_read_back"
   ],
   "note": "The parameters are proved (yoo_lawful). The code does not have the rest: the value is multiplied by an uninitialised number (yoo_value, yoo_value_undefined), it does not depend on the light (yoo_ignores_light), the profile is negative within the bounds (yoo_negative), the derivative with respect to the mean free path is wrong (yoo_wrong_jacobian), and the file is read with success but without its coefficients (yoo_not_read_back)."
  },
  {
   "property": "C78",
   "status": "partial",
   "theorems": [
    "Alta.brdf2brdf_code",
    "Alta.brdf2brdf_same",
    "Alta.brdf2brdf_plugin",
    "Alta.brdf2brdf_exact",
    "Alta.brdf2brdf_rational",
    "Alta.brdf2brdf_rational_chain",
    "Alta.brdf2brdf_shader",
    "Alta.loadAny_nonlinear",
    "Alta.brdf2brdf_func_needed",
    "Alta.brdf2brdf_export_alta",
    "Alta.brdf2brdf_bad_input",
    "Alta.rational_long_line"
   ],
   "note": "Proved when the command line of brdf2brdf repeats the option --func of the file (brdf2brdf_same, brdf2brdf_plugin, brdf2brdf_exact), for rational functions (brdf2brdf_rational, brdf2brdf_rational_chain) and for the shaders (brdf2brdf_shader, with C72). The code does not have the rest: without --func the new file cannot be loaded (brdf2brdf_func_needed), with --export alta it has no header and cannot be loaded (brdf2brdf_export_alta), and an input that cannot be loaded is a null pointer (brdf2brdf_bad_input)."
  },
  {
   "property": "C79",
   "status": "partial",
   "theorems": [
    "Alta.cpp_export_value",
    "Alta.cpp_export_exact",
    "Alta.cpp_export_pole",
    "Alta.cpp_domain_lost",
    "Alta.cpp_basis_lost",
    "Alta.cpp_channels_not_a_program",
    "Alta.cpp_other_channel",
    "Alta.rational_shader_stops",
    "Alta.nonlinear_cpp_not_a_program"
   ],
   "note": "Proved for one channel on the domain [-1, 1]^d (cpp_export_exact), and on any domain at the point of [-1, 1]^d that corresponds to the given one (cpp_export_value; cpp_export_pole where the denominator is zero). The code does not have the rest: the domain is not written (cpp_domain_lost), nor the basis of the plugins (cpp_basis_lost), with several channels the file is not a program (cpp_channels_not_a_program), a channel that is not the first one is returned as the first one (cpp_other_channel). The shader of a rational function is not written (rational_shader_stops), and a nonlinear function exported as C++ is not a program (nonlinear_cpp_not_a_program)."
  },
  {
   "property": "C80",
   "status": "partial",
   "theorems": [
    "Alta.data2stats_run",
    "Alta.data2stats_metrics",
    "Alta.statsFile_read",
    "Alta.loadDataFile_saved",
    "Alta.merl_comparable",
    "Alta.merl_errors",
    "Alta.merl_self",
    "Alta.data2stats_merl",
    "Alta.data2stats_merl_self",
    "Alta.data2stats_missing_file",
    "Alta.data2stats_missing_reference",
    "Alta.data2stats_failure",
    "Alta.data2stats_default_input",
    "Alta.merl_self_negative",
    "Alta.RUSIN_TH_TD_PD_coordinates"
   ],
   "note": "Proved for every input object that answers at the abscissae of the reference, and for MERL files from their bytes to the written statistics. The code does not have the rest: an input of the default class cannot be evaluated (data2stats_default_input), and a MERL file with a negative channel is not at distance 0 of itself (merl_self_negative)."
  },
  {
   "property": "C81",
   "status": "proved",
   "theorems": [
    "Alta.data2brdf_rational_outcome",
    "Alta.data2brdf_rational_ends",
    "Alta.data2brdf_rational_file",
    "Alta.data2brdf_quadprog_segments",
    "Alta.data2brdf_quadprog_linf",
    "Alta.data2brdf_rational_refuses",
    "Alta.data2brdf_intervals_needed",
    "Alta.getFunction_rational",
    "Alta.RationalFitter.onData",
    "Alta.data2brdf_eigen_optimal",
    "Alta.data2brdf_least_optimal",
    "Alta.data2brdf_quadprog_succeeds"
   ],
   "note": "The solvers are parameters with a contract (C53, C70, C71). Beyond the claim: a --func whose library is not found is not an error, a rational function is fitted (getFunction_rational), and its file is loaded as well."
  },
  {
   "property": "C82",
   "status": "proved",
   "theorems": [
    "Alta.xml_script_run",
    "Alta.xml_script_commands",
    "Alta.xml_script_all",
    "Alta.command_options",
    "Alta.xml_action_options",
    "Alta.xml_functions_sum",
    "Alta.xml_function_single",
    "Alta.xml_no_output",
    "Alta.example_options",
    "Alta.example_run",
    "Alta.example_no_output"
   ],
   "note": "For actions with an input and an output element. Beyond the claim: without one of them the program is run once for each character of its options (xml_no_output), the parameters dat-dir and out-dir are read and not used, and the exit status is 0 when a command fails (xml_script_run)."
  },
  {
   "property": "C83",
   "status": "partial",
   "theorems": [
    "Alta.eigen_fit_history",
    "Alta.least_fit_history",
    "Alta.quadprog_fit_history",
    "Alta.stateless_fit_history",
    "Alta.stateless_fit_without",
    "Alta.fit_without_last",
    "Alta.least_fit_new",
    "Alta.ceres_first_options",
    "Alta.ceres_after",
    "Alta.ceres_fit_history",
    "Alta.ceres_fit_without",
    "Alta.fit_without_not_default",
    "Alta.fit_new_uninitialised",
    "Alta.ceres_options_stay"
   ],
   "note": "Fits with options: proved for all the fitters but Ceres, which keeps the options of the calls before (ceres_fit_history says which ones, ceres_options_stay is a history where the result is another one). Fits without options: proved for the fitters that keep nothing (the nonlinear ones with Eigen, NLopt, Ipopt, and quadprog_parallel) and for a new least squares fitter. The code does not have the rest: the fit uses the options of the last call that had some (fit_without_last, fit_without_not_default) or, with a new eigen or quadprog fitter, the content of the memory (fit_new_uninitialised)."
  },
  {
   "property": "C84",
   "status": "partial",
   "theorems": [
    "Alta.python_arguments_find",
    "Alta.python_arguments_update",
    "Alta.python_arguments_command_line",
    "Alta.python_function_from_arguments",
    "Alta.python_vec_option",
    "Alta.python_vec_frame",
    "Alta.python_vec_script",
    "Alta.python_vec_make",
    "Alta.python_vec_copy",
    "Alta.python_vec_add",
    "Alta.python_vec_sub",
    "Alta.python_vec_set",
    "Alta.python_vec_expression",
    "Alta.python_vec_sizes_unchecked",
    "Alta.python_vec_set_unchecked"
   ],
   "note": "Proved but for the errors: the code does not check the sizes of the operands of a sum (python_vec_sizes_unchecked) nor the index of an assignment (python_vec_set_unchecked): memory outside of the vector is read or written."
  },
  {
   "property": "C85",
   "status": "partial",
   "theorems": [
    "Alta.python_load_saved",
    "Alta.python_saves",
    "Alta.python_save_then_load",
    "Alta.python_save_then_load_exact",
    "Alta.python_files_frame",
    "Alta.python_files_script",
    "Alta.python_load_nothing",
    "Alta.python_load_function_none",
    "Alta.python_partly_loaded"
   ],
   "note": "load is proved. The code does not have the rest: load_function of a file saved from Python is None for every nonlinear function (python_load_function_none: the options are not saved, and save with options cannot be called), a file that cannot be read is no error (python_load_nothing), and a file that is read in part changes a part of the function without an error (python_partly_loaded)."
  },
  {
   "property": "C86",
   "status": "partial",
   "theorems": [
    "Alta.isotropic_of_coordinates",
    "Alta.lobe_isotropic",
    "Alta.composition_isotropic",
    "Alta.retrobeckmann_not_isotropic",
    "Alta.sg_moment_not_isotropic"
   ],
   "note": "Proved for every composition of objects that are meant isotropic (LobeObj.MeantIsotropic). The code does not have the property for the retro Beckmann lobe with its default cosine and the moment version of the spherical Gaussian: each refutation is proved."
  },
  {
   "property": "C87",
   "status": "partial",
   "theorems": [
    "Alta.data2data_exit",
    "Alta.data2data_run",
    "Alta.data2data_text_file",
    "Alta.data2data_binary_file",
    "Alta.data2data_there_and_back",
    "Alta.data2data_plugin_file",
    "Alta.interpolatePoint_spec",
    "Alta.data2data_splat",
    "Alta.data2data_null_input",
    "Alta.data2data_unknown_name",
    "Alta.data2data_binary_intervals"
   ],
   "note": "Proved for the text files, for the binary files whose first byte is not the character # (the others are not loaded, C22), and for all the outputs of plugins. The code does not have the rest: an --in-data that is not found is a null pointer and not an error (data2data_null_input), an unknown --param is ignored (data2data_unknown_name), and the intervals of the samples of a binary file are 0..0 (data2data_binary_intervals)."
  },
  {
   "property": "C88",
   "status": "partial",
   "theorems": [
    "Alta.brdf2data_run",
    "Alta.brdf2data_text_file",
    "Alta.brdf2data_plugin_file",
    "Alta.brdf2data_failure",
    "Alta.brdf2data_exit",
    "Alta.exported_distances",
    "Alta.fit_then_export_rational",
    "Alta.fit_then_export_quadprog",
    "Alta.fit_then_export_nonlinear",
    "Alta.brdf2data_null_template",
    "Alta.brdf2data_no_template"
   ],
   "note": "Proved for all the templates and functions that can be loaded; the distances of the fit are those of the file when the coefficients are printed exactly. The code does not have the rest: a --data plugin that is not found is a null pointer, and the program then ends with the exit code 0 without writing anything (brdf2data_null_template); with --data and ALTA's own class but no template file, it writes a file without a sample (brdf2data_no_template)."
  },
  {
   "property": "C89",
   "status": "partial",
   "theorems": [
    "Alta.fit2stat_file",
    "Alta.fit2statFile_read",
    "Alta.fit2stat_no_file",
    "Alta.fit2stat_exit",
    "Alta.fit2stat_missing",
    "Alta.fit_then_stat_rational",
    "Alta.fit_then_stat_nonlinear",
    "Alta.fitStats_distances",
    "Alta.fit2stat_not_cartesian",
    "Alta.fit2stat_other_kinds",
    "Alta.fit_then_stat_refused"
   ],
   "note": "Proved for functions of the two directions and data that can be compared with them. The code does not have the rest: the four weighted statistics of the file all have for weight the first cosine, that of the view (in the conclusion of fit2stat_file, and the example of Props/FitStatExample); a function of another parametrization (fit2stat_not_cartesian), and data of another parametrization and kind of values (fit2stat_other_kinds, so on the data of most nonlinear fits: fit_then_stat_refused), end the program by an exception before anything is written."
  },
  {
   "property": "C90",
   "status": "partial",
   "theorems": [
    "Alta.brdf2gnuplot_file",
    "Alta.brdf2gnuplot_cos_file",
    "Alta.brdf2gnuplot_linear_file",
    "Alta.brdf2gnuplot_polar_file",
    "Alta.brdf2gnuplot_exit",
    "Alta.brdf2gnuplot_missing",
    "Alta.plot_as_export",
    "Alta.plot_distances",
    "Alta.fit_then_plot_rational",
    "Alta.fit_then_plot_nonlinear",
    "Alta.brdf2gnuplot_data_alone",
    "Alta.brdf2gnuplot_nothing",
    "Alta.brdf2gnuplot_unwritable",
    "Alta.brdf2gnuplot_ends"
   ],
   "note": "Proved for all the files that can be loaded and compared; the cosines for functions of the two directions (the other cases in C68), the linear plot for values of the data that are not zero, the distances of the fit when the coefficients are printed exactly. The code does not have the rest: an output that cannot be opened, and a run with neither data nor --polar-plot, give the exit code 0 without a file (brdf2gnuplot_unwritable, brdf2gnuplot_nothing); --data alone, which the help describes, always fails (brdf2gnuplot_data_alone); a plugin of data that is not there, data without samples, and the polar plot of a function without parametrization end the program abnormally (brdf2gnuplot_ends)."
  },
  {
   "property": "C91",
   "status": "partial",
   "theorems": [
    "Alta.data2moments_run",
    "Alta.momentsFile_read",
    "Alta.momentsOption_numbers",
    "Alta.data2moments_exit",
    "Alta.data2moments_missing",
    "Alta.data2moments_segments",
    "Alta.data2moments_merl",
    "Alta.merl_weight",
    "Alta.merl_volume",
    "Alta.merl_ready",
    "Alta.data2moments_no_plugin",
    "Alta.data2moments_unwritable",
    "Alta.data2moments_unbracketed",
    "Alta.data2moments_constant_file",
    "Alta.merl_moments_negative"
   ],
   "note": "Proved for all interpolating data whose moment of order 0 is not null in each channel, and for MERL files from their bytes to the moments that are written. The code does not have the rest: an output that cannot be opened gives the exit code 0 (data2moments_unwritable), a data plugin that is not there leaves an empty output file (data2moments_no_plugin), data with one value give nan (data2moments_constant_file), a number of samples that is not between brackets ends the program (data2moments_unbracketed), and the negative mark of what was not measured in a MERL file is the smallest value, so that it adds a constant to every value (merl_moments_negative). Negative numbers in the options are not modelled."
  },
  {
   "property": "C92",
   "status": "partial",
   "theorems": [
    "Alta.interrupted_binary_partial",
    "Alta.interrupted_binary_corrupts",
    "Alta.interrupted_text_header",
    "Alta.interrupted_text_between",
    "Alta.interrupted_text_partial",
    "Alta.interrupted_text_corrupts",
    "Alta.interrupted_merl_corrupts",
    "Alta.interrupted_merl_example",
    "Alta.interrupted_function_corrupts",
    "Alta.interrupted_function_loads",
    "Alta.interrupted_beckmann",
    "Alta.rational_load_complete",
    "Alta.interrupted_rational",
    "Alta.interrupted_rational_corrupts"
   ],
   "note": "Proved for every number of bytes: a binary file gives none, all or no samples (never a part of them); a text file gives the samples whose lines were written, with at most one more. The code does not have the rest: a binary file cut after its dimensions is read as a text file without samples (interrupted_binary_corrupts); a number that was cut is loaded as another number (interrupted_text_corrupts); a MERL file that was cut is loaded with zeros for all that is missing (interrupted_merl_corrupts, interrupted_merl_example); a function file that was cut after the name of the function is loaded with the coefficients of a new object (interrupted_function_corrupts); for twelve classes any cut after the name is accepted (interrupted_function_loads), and the numbers are the ones that were written, then those of a new object (interrupted_beckmann); a rational function that was cut between two coefficients is loaded with what the memory contained for the others (interrupted_rational), so that its last coefficient can be any number (interrupted_rational_corrupts). Rational functions cut inside a number, or with several channels, are not covered."
  },
  {
   "property": "C93",
   "status": "partial",
   "theorems": [
    "Alta.data_generations",
    "Alta.data_generations_from",
    "Alta.conversion_step",
    "Alta.rational_generations",
    "Alta.reexport_step",
    "Alta.function_generations",
    "Alta.reexport_function",
    "Alta.retrobeckmann_generations"
   ],
   "note": "Proved for histories of any length, for printings that are stable and binary files whose first byte is not the one of a comment. The code does not have the rest: a retro-Beckmann lobe of the back direction is read as one of the retro direction and conversely, so that its file changes at each run, for ever (retrobeckmann_generations); the classes that C56 does not read back (Lafortune with several lobes) are not covered."
  },
  {
   "property": "C94",
   "status": "proved",
   "theorems": [
    "Alta.joined_files",
    "Alta.joined_bodies",
    "Alta.joined_rejected",
    "Alta.saved_files_joined",
    "Alta.permuted_lines",
    "Alta.permuted_files",
    "Alta.selected_lines",
    "Alta.saved_reordered",
    "Alta.l2_reordered",
    "Alta.linf_reordered",
    "Alta.l2_joined",
    "Alta.linf_joined",
    "Alta.quadprog_reordered",
    "Alta.joined_other_header"
   ],
   "note": "When the two headers do not say the same the layout of the first is used for all the samples, whatever the second says: joined_other_header."
  },
  {
   "property": "C95",
   "status": "proved",
   "theorems": [
    "Alta.data2data_joined",
    "Alta.data2data_reordered",
    "Alta.data2data_cut",
    "Alta.data2data_joined_runs",
    "Alta.data2data_of_joined_files",
    "Alta.brdf2data_joined",
    "Alta.brdf2data_reordered",
    "Alta.brdf2data_cut",
    "Alta.brdf2data_joined_runs",
    "Alta.brdf2data_of_joined_files"
   ],
   "note": "For the outputs in ALTA's text format, and templates and inputs in the same format, in a parametrization that exists; the files are described by their headers and lines (Spec/Samplewise)."
  },
  {
   "property": "C96",
   "status": "proved",
   "theorems": [
    "Alta.fit2stat_reordered",
    "Alta.fit2stat_twice",
    "Alta.data2stats_reordered",
    "Alta.data2stats_twice"
   ],
   "note": "In exact arithmetic, with files in ALTA's text format, for the runs of C80 and C89, in which the samples can be compared."
  },
  {
   "property": "C97",
   "status": "proved",
   "theorems": [
    "Alta.fit2stat_joined",
    "Alta.data2stats_joined"
   ],
   "note": "In exact arithmetic up to the printing, with files in ALTA's text format, for the runs of C80 and C89. That the joined file loads as the samples of both is C94 (joined_files)."
  },
  {
   "property": "C98",
   "status": "proved",
   "theorems": [
    "Alta.brdf2gnuplot_joined",
    "Alta.brdf2gnuplot_joined_plain",
    "Alta.brdf2gnuplot_joined_runs",
    "Alta.brdf2gnuplot_reordered",
    "Alta.brdf2gnuplot_cut"
   ],
   "note": "For data in ALTA's text format. That the joined file loads as the samples of both is C94 (joined_files)."
  }
 ]
}