{
 "claims": [
  {
   "property": "C01",
   "status": "proved",
   "theorems": [
    "C01_triweight_cdf",
    "C01_triweight_cdf_strict"
   ],
   "note": ""
  },
  {
   "property": "C02",
   "status": "proved",
   "theorems": [
    "C02_triweight_density",
    "C02_triweight_integral_one"
   ],
   "note": ""
  },
  {
   "property": "C03",
   "status": "proved",
   "theorems": [
    "C03_bin_is_integral",
    "C03_histogram_partition",
    "C03_histogram_total_one",
    "C03_far_bin_zero"
   ],
   "note": ""
  },
  {
   "property": "C04",
   "status": "proved",
   "theorems": [
    "C04_triweights_prob",
    "C04_triweights_overlap",
    "C04_triweights_outside"
   ],
   "note": ""
  },
  {
   "property": "C05",
   "status": "partial",
   "theorems": [
    "C05_edges_limits",
    "C05_mids_in_bins_iff",
    "C05_edges_bracket_partial",
    "C05_edges_bracket_uniform",
    "C05_edges_not_monotone"
   ],
   "note": "False on irregular grids (C05_edges_not_monotone is a machine-checked counterexample). Proved: limits always; exact iff-characterisation of when every mid is inside its bin; bracketing under that condition and for all uniform grids."
  },
  {
   "property": "C06",
   "status": "proved",
   "theorems": [
    "C06_widths_pos",
    "C06_run_telescopes",
    "C06_widths_total",
    "C06_uniform"
   ],
   "note": ""
  },
  {
   "property": "C07",
   "status": "proved",
   "theorems": [
    "C07_sigmoid_bounds",
    "C07_sigmoid_onto"
   ],
   "note": ""
  },
  {
   "property": "C08",
   "status": "proved",
   "theorems": [
    "C08_inverse_sigmoid_sigmoid",
    "C08_sigmoid_inverse_sigmoid"
   ],
   "note": ""
  },
  {
   "property": "C09",
   "status": "proved",
   "theorems": [
    "C09_sig_slope",
    "C09_tw_sig_slope",
    "C09_tw_sig_slope_asymptotes"
   ],
   "note": ""
  },
  {
   "property": "C10",
   "status": "proved",
   "theorems": [
    "C10_cumtrapz_increments",
    "C10_cumtrapz_prefix",
    "C10_cumtrapz_last",
    "C10_cumtrapz_mono"
   ],
   "note": ""
  },
  {
   "property": "C11",
   "status": "proved",
   "theorems": [
    "C11_trapz_linear",
    "C11_trapz_mono",
    "C11_trapz_nonneg",
    "C11_trapz_affine",
    "C11_trapz_reverse",
    "C11_trapz_split"
   ],
   "note": ""
  },
  {
   "property": "C12",
   "status": "proved",
   "theorems": [
    "C12_mstar_formula",
    "C12_mstar_pos_strictMono",
    "C12_mstar_pos_of_nonneg",
    "C12_mstar_causal"
   ],
   "note": ""
  },
  {
   "property": "C13",
   "status": "partial",
   "theorems": [
    "C13_pretable_mass_iff",
    "C13_pretable_doc_violated",
    "C13_pretable_mass_partial"
   ],
   "note": "The code does not implement the documented assumption: C13_pretable_doc_violated is a witness, C13_pretable_mass_iff the exact condition (sfh[0] = SFR_MIN) under which it holds."
  },
  {
   "property": "C14",
   "status": "proved",
   "theorems": [
    "C14_outer_product",
    "C14_outer_product_batched",
    "C14_totals",
    "C14_marginals",
    "C14_marginals_3d"
   ],
   "note": ""
  },
  {
   "property": "C15",
   "status": "proved",
   "theorems": [
    "C15_powerlaw_pdf"
   ],
   "note": ""
  },
  {
   "property": "C16",
   "status": "proved",
   "theorems": [
    "C16_distribution",
    "C16_joint_distribution",
    "C16_powerlaw_rvs",
    "C16_powerlaw_rvs_strictMono"
   ],
   "note": ""
  },
  {
   "property": "C17",
   "status": "partial",
   "theorems": [
    "C17_total_mass_pos_iff",
    "C17_age_weights_prob_partial",
    "C17_age_weights_sum",
    "C17_age_edges_mono",
    "C17_age_weights_prob_mild_partial",
    "C17_negative_weight"
   ],
   "note": "Nonnegativity needs ordered age-bin edges and the normalising mass must be positive: proved for grids with mildly varying spacing whose bins meet the table; C17_negative_weight and C17_total_mass_pos_iff show both hypotheses are needed."
  },
  {
   "property": "C18",
   "status": "proved",
   "theorems": [
    "C18_no_stars_before_table"
   ],
   "note": ""
  },
  {
   "property": "C19",
   "status": "proved",
   "theorems": [
    "C19_age_weights_causal",
    "C19_future_update_irrelevant"
   ],
   "note": ""
  },
  {
   "property": "C20",
   "status": "proved",
   "theorems": [
    "C20_weight_is_mass_share",
    "C20_run_telescopes",
    "C20_mass_history"
   ],
   "note": ""
  },
  {
   "property": "C21",
   "status": "partial",
   "theorems": [
    "C21_lgmet_weights_prob_partial",
    "C21_lgmet_weights_prob_mild_partial",
    "C21_lgmet_weights_sum",
    "C21_negative_weight"
   ],
   "note": "Same bin-edge defect as C05: proved for mildly spaced metallicity grids (and whenever edges are ordered)."
  },
  {
   "property": "C22",
   "status": "partial",
   "theorems": [
    "C22_lgmet_table_weights_partial",
    "C22_lgmet_table_columns",
    "C22_lgmet_at_age_range"
   ],
   "note": "Same bin-edge defect as C05: proved whenever the metallicity bin edges are ordered."
  },
  {
   "property": "C23",
   "status": "proved",
   "theorems": [
    "C23_joint_weights_lognormal",
    "C23_joint_weights_lognormal_inputs",
    "C23_factorisation_any_grid"
   ],
   "note": ""
  },
  {
   "property": "C24",
   "status": "proved",
   "theorems": [
    "C24_joint_weights_met_table",
    "C24_factorisation_any_grid"
   ],
   "note": ""
  },
  {
   "property": "C25",
   "status": "proved",
   "theorems": [
    "C25_sed_formula",
    "C25_sed_between",
    "C25_sed_common_spectrum",
    "C25_sed_linear_local"
   ],
   "note": ""
  },
  {
   "property": "C26",
   "status": "partial",
   "theorems": [
    "C26_mass_normalisation",
    "C26_weights_ignore_sfr_min",
    "C26_sfr_min_inconsistent"
   ],
   "note": "sfr_min is used for the mass normalisation but not for the weights (the sed kernels do not forward it to the weight kernels): C26_weights_ignore_sfr_min, C26_sfr_min_inconsistent."
  },
  {
   "property": "C27",
   "status": "proved",
   "theorems": [
    "C27_burst_bounds",
    "C27_burst_onto",
    "C27_default_in_bounds"
   ],
   "note": ""
  },
  {
   "property": "C28",
   "status": "proved",
   "theorems": [
    "C28_u_roundtrip",
    "C28_roundtrip",
    "C28_default",
    "C28_explicit"
   ],
   "note": ""
  },
  {
   "property": "C29",
   "status": "proved",
   "theorems": [
    "C29_pureburst_weights",
    "C29_pureburst_peaked"
   ],
   "note": ""
  },
  {
   "property": "C30",
   "status": "partial",
   "theorems": [
    "C30_bursty_weights",
    "C30_bursty_prob_partial",
    "C30_bursty_prob_u_partial",
    "C30_mass_lost",
    "C30_mass_lost_witness"
   ],
   "note": "False when no grid age falls inside the burst support: then the weights total 1-fb (C30_mass_lost, C30_mass_lost_witness). Proved: exact total in general, and normalisation for every in-bounds burst on every grid that brackets 1-10 Myr without 2-dex gaps."
  },
  {
   "property": "C31",
   "status": "proved",
   "theorems": [
    "C31_public_eq_legacy",
    "C31_u_eq",
    "C31_affine"
   ],
   "note": ""
  },
  {
   "property": "C32",
   "status": "partial",
   "theorems": [
    "C32_mzr_bounds_partial",
    "C32_mzr_image",
    "C32_slope_hi_exceeds"
   ],
   "note": "mzr_t0_slope_hi can exceed its MZR_PBOUNDS upper bound 0.3 (C32_slope_hi_exceeds); the other eight parameters and 0<slope_hi<slope_lo are proved, and the image is characterised exactly (C32_mzr_image)."
  },
  {
   "property": "C33",
   "status": "proved",
   "theorems": [
    "C33_u_roundtrip",
    "C33_roundtrip",
    "C33_explicit",
    "C33_default"
   ],
   "note": ""
  },
  {
   "property": "C34",
   "status": "proved",
   "theorems": [
    "C34_umzr_le_t0",
    "C34_umzr_late",
    "C34_umzr_no_evolution",
    "C34_mzr_le_t0",
    "C34_mzr_late"
   ],
   "note": ""
  },
  {
   "property": "C35",
   "status": "proved",
   "theorems": [
    "C35_mzr_eq_umzr",
    "C35_defaults",
    "C35_scatter",
    "C35_t0_shift"
   ],
   "note": ""
  },
  {
   "property": "C36",
   "status": "partial",
   "theorems": [
    "C36_mzr_monotone_iff",
    "C36_mzr_monotone_partial",
    "C36_not_monotone",
    "C36_mzr_module_monotone_iff"
   ],
   "note": "False on part of the admissible region (C36_not_monotone); C36_mzr_monotone_iff is the exact criterion for monotonicity, C36_mzr_monotone_partial a simple sufficient one."
  },
  {
   "property": "C37",
   "status": "proved",
   "theorems": [
    "C37_surviving_fraction",
    "C37_surviving_decreasing",
    "C37_surviving_values",
    "C37_calibrations"
   ],
   "note": ""
  },
  {
   "property": "C38",
   "status": "proved",
   "theorems": [
    "C38_remnant_increasing",
    "C38_remnant_lt_one",
    "C38_remnant_pivot",
    "C38_calibrations"
   ],
   "note": ""
  },
  {
   "property": "C39",
   "status": "proved",
   "theorems": [
    "C39_pogson",
    "C39_pogson_rest",
    "C39_flux_from_mag"
   ],
   "note": ""
  },
  {
   "property": "C40",
   "status": "proved",
   "theorems": [
    "C40_ab_zero_point",
    "C40_ab_zero_point_rest"
   ],
   "note": ""
  },
  {
   "property": "C41",
   "status": "proved",
   "theorems": [
    "C41_filter_normalisation"
   ],
   "note": ""
  },
  {
   "property": "C42",
   "status": "proved",
   "theorems": [
    "C42_additive",
    "C42_monotone",
    "C42_nonnegative",
    "C42_local",
    "C42_no_extrapolation"
   ],
   "note": ""
  },
  {
   "property": "C43",
   "status": "proved",
   "theorems": [
    "C43_redshift_zero"
   ],
   "note": ""
  },
  {
   "property": "C44",
   "status": "proved",
   "theorems": [
    "C44_blueshifted_filter",
    "C44_resolved"
   ],
   "note": ""
  },
  {
   "property": "C45",
   "status": "proved",
   "theorems": [
    "C45_tables"
   ],
   "note": ""
  },
  {
   "property": "C46",
   "status": "proved",
   "theorems": [
    "C46_common_length",
    "C46_reinterpolation",
    "C46_independent",
    "C46_idempotent"
   ],
   "note": ""
  },
  {
   "property": "C47",
   "status": "proved",
   "theorems": [
    "C47_in_passband",
    "C47_normalisation",
    "C47_scaling",
    "C47_shift"
   ],
   "note": ""
  },
  {
   "property": "C48",
   "status": "proved",
   "theorems": [
    "C48_distance_duality",
    "C48_distance_modulus",
    "C48_modulus_inverse",
    "C48_vectorised",
    "C48_obs_mag",
    "C48_inverse_square_law",
    "C48_dimming_from_table"
   ],
   "note": ""
  },
  {
   "property": "C49",
   "status": "proved",
   "theorems": [
    "C49_zero_today",
    "C49_positive",
    "C49_scale_with_h"
   ],
   "note": ""
  },
  {
   "property": "C50",
   "status": "proved",
   "theorems": [
    "C50_hubble_bound",
    "C50_lookback_bound",
    "C50_luminosity_increasing",
    "C50_modulus_increasing",
    "C50_comoving_increasing",
    "C50_lookback_increasing",
    "C50_decreasing_in_matter"
   ],
   "note": ""
  },
  {
   "property": "C51",
   "status": "proved",
   "theorems": [
    "C51_friedmann",
    "C51_integrands",
    "C51_dark_energy_continuity",
    "C51_today",
    "C51_increasing",
    "C51_matter_fraction",
    "C51_matter_fraction_increasing",
    "C51_fractions_sum_to_one"
   ],
   "note": ""
  },
  {
   "property": "C52",
   "status": "partial",
   "theorems": [
    "C52_age_plus_lookback",
    "C52_age_today",
    "C52_age_positive_partial",
    "C52_age_negative_at_high_z",
    "C52_age_decreasing",
    "C52_age_negative_everywhere",
    "C52_age_sign"
   ],
   "note": "Age plus lookback, age today and strict decrease of age with redshift are proved in full (all z >= 0). Positivity is false: C52_age_negative_at_high_z (Om0>=0.3, z>=1100), C52_age_negative_everywhere (every Om0, z>=7200); C52_age_sign: exactly one sign change, between z=35 and z=7200; positive for z<=35."
  },
  {
   "property": "C53",
   "status": "proved",
   "theorems": [
    "C53_rho_crit",
    "C53_delta_vir",
    "C53_delta_vir_increasing",
    "C53_dynamical_time",
    "C53_dynamical_time_decreasing"
   ],
   "note": ""
  },
  {
   "property": "C54",
   "status": "proved",
   "theorems": [
    "C54_formula",
    "C54_positive",
    "C54_vectorised",
    "C54_scale_with_h",
    "C54_is_volume_derivative"
   ],
   "note": ""
  },
  {
   "property": "C55",
   "status": "proved",
   "theorems": [
    "C55_bounds",
    "C55_no_dust",
    "C55_magnitudes",
    "C55_full_transmission_iff"
   ],
   "note": ""
  },
  {
   "property": "C56",
   "status": "proved",
   "theorems": [
    "C56_screens_compose",
    "C56_monotone",
    "C56_strict",
    "C56_monotone_in_curve",
    "C56_negative_curve_is_transparent"
   ],
   "note": ""
  },
  {
   "property": "C57",
   "status": "proved",
   "theorems": [
    "C57_nonnegative",
    "C57_models_coincide",
    "C57_base_curve",
    "C57_difference",
    "C57_default_bump",
    "C57_att_curves"
   ],
   "note": ""
  },
  {
   "property": "C58",
   "status": "partial",
   "theorems": [
    "C58_calzetti_decreasing_partial",
    "C58_calzetti_jump",
    "C58_base_jump",
    "C58_almost_decreasing",
    "C58_base_almost_decreasing",
    "C58_calzetti_vband",
    "C58_calzetti_positive_iff",
    "C58_calzetti_zero_infrared",
    "C58_leitherer",
    "C58_triweight",
    "C58_triweight_power_laws"
   ],
   "note": "Global monotonicity is false (C58_calzetti_jump at 0.63 micron, C58_base_jump at 0.15 micron); proved: strictly decreasing on each branch, decreasing up to 0.026 globally; V-band normalisation, exact positivity range, Leitherer and triweight curves in full."
  },
  {
   "property": "C59",
   "status": "proved",
   "theorems": [
    "C59_bump",
    "C59_bump_unimodal",
    "C59_bump_shape",
    "C59_power_law",
    "C59_eb_delta"
   ],
   "note": ""
  },
  {
   "property": "C60",
   "status": "proved",
   "theorems": [
    "C60_planck",
    "C60_consistent",
    "C60_positive"
   ],
   "note": ""
  },
  {
   "property": "C61",
   "status": "proved",
   "theorems": [
    "C61_increasing_in_temperature",
    "C61_rayleigh_jeans_wien",
    "C61_wien_peak_frequency",
    "C61_wien_peak_wavelength"
   ],
   "note": ""
  },
  {
   "property": "C62",
   "status": "proved",
   "theorems": [
    "C62_recovers_quadratic",
    "C62_no_line",
    "C62_line_on_continuum"
   ],
   "note": ""
  },
  {
   "property": "C63",
   "status": "proved",
   "theorems": [
    "C63_kernels_agree",
    "C63_linear",
    "C63_scale_invariant",
    "C63_continuum_subtraction"
   ],
   "note": ""
  },
  {
   "property": "C64",
   "status": "proved",
   "theorems": [
    "C64_sanitize_spec",
    "C64_sanitizers_agree",
    "C64_sanitize_clean",
    "C64_sanitize_id",
    "C64_sanitize_idempotent",
    "C64_sanitize_not_injective"
   ],
   "note": ""
  },
  {
   "property": "C65",
   "status": "proved",
   "theorems": [
    "C65_accepts_iff",
    "C65_contents",
    "C65_rejects",
    "C65_only_valueError",
    "C65_fileLines",
    "C65_strip"
   ],
   "note": ""
  },
  {
   "property": "C66",
   "status": "proved",
   "theorems": [
    "C66_succeeds_iff",
    "C66_errors",
    "C66_no_lines",
    "C66_aligned",
    "C66_twice",
    "C66_all"
   ],
   "note": ""
  },
  {
   "property": "C67",
   "status": "partial",
   "theorems": [
    "C67_check_spec",
    "C67_in_unit_interval",
    "C67_load_spec",
    "C67_unchanged",
    "C67_negative_rejected",
    "C67_exceeding_accepted",
    "C67_exceeding_rejected_partial"
   ],
   "note": "load_transmission_curve tests transmission.min() > 1+TOL where max() is meant: C67_exceeding_accepted is a machine-checked file with a value far above 1 that is accepted. Proved: what exactly is accepted (C67_check_spec, C67_load_spec), that the result is always clipped to [0,1], that negative curves are rejected, that in-range curves come back unchanged."
  },
  {
   "property": "C68",
   "status": "proved",
   "theorems": [
    "C68_fn_wins",
    "C68_ssp_drn",
    "C68_ssp_env",
    "C68_filter_drn",
    "C68_filter_glob_errors",
    "C68_filter_no_pattern",
    "C68_filter_env",
    "C68_pathJoin",
    "C68_dummy",
    "C68_reads_only_resolved",
    "C68_filter_reads_only_resolved"
   ],
   "note": ""
  },
  {
   "property": "C69",
   "status": "partial",
   "theorems": [
    "C69_round_trip",
    "C69_round_trip_file",
    "C69_pairing",
    "C69_no_lines_script_raises",
    "C69_no_lines_file_loads_partial",
    "C69_non_ascii",
    "C69_loaded_wf"
   ],
   "note": "Round trip with emission lines proved in full. Data without lines: the writer script raises AttributeError (C69_no_lines_script_raises) after writing the four arrays, and the file it leaves behind loads back unchanged (C69_no_lines_file_loads_partial)."
  },
  {
   "property": "C70",
   "status": "partial",
   "theorems": [
    "C70_terminates_iff",
    "C70_never_terminates",
    "C70_terminates_partial",
    "C70_unlucky_draws",
    "C70_result",
    "C70_tail",
    "C70_terminates_almost_surely",
    "C70_almost_surely"
   ],
   "note": "False above 26^3 lines (C70_never_terminates) and for unlucky draws (C70_unlucky_draws). Proved: exact termination criterion, termination for n_line <= 17576 whenever every three-letter name is eventually drawn, termination with probability one (with a geometric tail bound) for independent uniform draws, and correctness of the result on termination."
  },
  {
   "property": "C71",
   "status": "proved",
   "theorems": [
    "C71_match_spec",
    "C71_unmatched_raises",
    "C71_names",
    "C71_shipped_succeeds_iff",
    "C71_pairing",
    "C71_emlines",
    "C71_succeeds_iff",
    "C71_unmatched_retrieval_raises",
    "C71_attribute_appears_late"
   ],
   "note": ""
  },
  {
   "property": "C72",
   "status": "proved",
   "theorems": [
    "C72_given_centre",
    "C72_random_centre",
    "C72_centre_surjective",
    "C72_short_range_centre_outside",
    "C72_centre_distribution"
   ],
   "note": ""
  },
  {
   "property": "C73",
   "status": "proved",
   "theorems": [
    "C73_comoving_accuracy",
    "C73_lookback_accuracy",
    "C73_age_accuracy",
    "C73_einstein_de_sitter"
   ],
   "note": ""
  },
  {
   "property": "C74",
   "status": "proved",
   "theorems": [
    "C74_stefan_boltzmann",
    "C74_wavelength_total"
   ],
   "note": ""
  },
  {
   "property": "C75",
   "status": "proved",
   "theorems": [
    "C75_bands",
    "C75_bands_gaussian",
    "C75_bands_ordered",
    "C75_fake_curves",
    "C75_filter_grids",
    "C75_peak_inside",
    "C75_filter_unimodal"
   ],
   "note": ""
  },
  {
   "property": "C76",
   "status": "proved",
   "theorems": [
    "C76_lgmet_grid",
    "C76_age_grid",
    "C76_spectra",
    "C76_emline_luminosity",
    "C76_lgmet_weights_prob"
   ],
   "note": ""
  },
  {
   "property": "C77",
   "status": "proved",
   "theorems": [
    "C77_reader_accepts",
    "C77_public_reader_accepts",
    "C77_names_valid",
    "C77_wavelengths_separated",
    "C77_match_unique"
   ],
   "note": ""
  },
  {
   "property": "C78",
   "status": "proved",
   "theorems": [
    "C78_inverse_sigmoid",
    "C78_sigmoid_finite",
    "C78_boundary_roundtrip"
   ],
   "note": ""
  },
  {
   "property": "C79",
   "status": "proved",
   "theorems": [
    "C79_nonzero_scatter_finite",
    "C79_zero_scatter"
   ],
   "note": ""
  },
  {
   "property": "C80",
   "status": "proved",
   "theorems": [
    "C80_age_weights_finite_iff",
    "C80_age_weights_finite",
    "C80_early_table_nan",
    "C80_linspace_table_nan",
    "C80_sed_finite",
    "C80_sed_finite_met_table"
   ],
   "note": ""
  },
  {
   "property": "C81",
   "status": "proved",
   "theorems": [
    "C81_rest_mag",
    "C81_rest_mag_physical",
    "C81_dead_filter"
   ],
   "note": ""
  },
  {
   "property": "C82",
   "status": "proved",
   "theorems": [
    "C82_distance_finite",
    "C82_distance_modulus",
    "C82_obs_mag"
   ],
   "note": ""
  },
  {
   "property": "C83",
   "status": "proved",
   "theorems": [
    "C83_blackbody_freq",
    "C83_blackbody_wave"
   ],
   "note": ""
  },
  {
   "property": "C84",
   "status": "proved",
   "theorems": [
    "C84_powerlaw"
   ],
   "note": ""
  },
  {
   "property": "C85",
   "status": "proved",
   "theorems": [
    "C85_burst_finite",
    "C85_zero_width"
   ],
   "note": ""
  },
  {
   "property": "C86",
   "status": "proved",
   "theorems": [
    "C86_effective_wavelength"
   ],
   "note": ""
  },
  {
   "property": "C87",
   "status": "proved",
   "theorems": [
    "C87_distribution",
    "C87_random_params",
    "C87_default_bounds",
    "C87_inadmissible_draw"
   ],
   "note": ""
  },
  {
   "property": "C88",
   "status": "proved",
   "theorems": [
    "C88_maiolino_parabola",
    "C88_maiolino_shift"
   ],
   "note": ""
  },
  {
   "property": "C89",
   "status": "proved",
   "theorems": [
    "C89_time_tables"
   ],
   "note": ""
  },
  {
   "property": "C90",
   "status": "proved",
   "theorems": [
    "C90_lgmet_weights_smooth",
    "C90_lognormal_mdf_smooth"
   ],
   "note": ""
  },
  {
   "property": "C91",
   "status": "proved",
   "theorems": [
    "C91_age_weights_continuous",
    "C91_sed_lognormal_continuous",
    "C91_sed_met_table_continuous"
   ],
   "note": ""
  },
  {
   "property": "C92",
   "status": "proved",
   "theorems": [
    "C92_bursty_weights_smooth",
    "C92_bursty_u_smooth",
    "C92_jump"
   ],
   "note": ""
  },
  {
   "property": "C93",
   "status": "proved",
   "theorems": [
    "C93_cosmology_smooth",
    "C93_distance_modulus_smooth"
   ],
   "note": ""
  },
  {
   "property": "C94",
   "status": "proved",
   "theorems": [
    "C94_flux_continuous",
    "C94_obs_mag_continuous",
    "C94_rest_mag_continuous",
    "C94_jump_at_edge"
   ],
   "note": ""
  },
  {
   "property": "C95",
   "status": "proved",
   "theorems": [
    "C95_age_closed_form",
    "C95_today",
    "C95_wmap5",
    "C95_fsps",
    "C95_lookback_closed_form",
    "C95_age_at_redshift"
   ],
   "note": ""
  },
  {
   "property": "C96",
   "status": "proved",
   "theorems": [
    "C96_comoving_increasing",
    "C96_lookback_increasing",
    "C96_age_decreasing",
    "C96_age_positive",
    "C96_comoving_accuracy",
    "C96_lookback_accuracy",
    "C96_age_accuracy",
    "C96_comoving_increasing_low_z"
   ],
   "note": ""
  },
  {
   "property": "C97",
   "status": "proved",
   "theorems": [
    "C97_mstar_rounding",
    "C97_mstar_rel_error",
    "C97_mstar_float32",
    "C97_mstar_nondecreasing"
   ],
   "note": ""
  },
  {
   "property": "C98",
   "status": "proved",
   "theorems": [
    "C98_normalized",
    "C98_joint_weights",
    "C98_sed_lognormal",
    "C98_sed_met_table",
    "C98_sed_mean"
   ],
   "note": ""
  },
  {
   "property": "C99",
   "status": "proved",
   "theorems": [
    "C99_flux_relative",
    "C99_flux_absolute",
    "C99_mag"
   ],
   "note": ""
  },
  {
   "property": "C100",
   "status": "proved",
   "theorems": [
    "C100_lgmet_weights_grad",
    "C100_lgmet_weights_jax_grad"
   ],
   "note": ""
  },
  {
   "property": "C101",
   "status": "proved",
   "theorems": [
    "C101_age_weights_grad",
    "C101_age_weights_sfh_grad",
    "C101_age_weights_jax_grad"
   ],
   "note": ""
  },
  {
   "property": "C102",
   "status": "proved",
   "theorems": [
    "C102_sed_grad",
    "C102_sed_met_table_grad",
    "C102_sed_jax_grad",
    "C102_sed_met_table_jax_grad"
   ],
   "note": ""
  },
  {
   "property": "C103",
   "status": "proved",
   "theorems": [
    "C103_rest_mag_grad",
    "C103_rest_flux_grad",
    "C103_obs_mag_grad",
    "C103_rest_mag_jax_grad",
    "C103_obs_mag_jax_grad",
    "C103_obs_mag_redshift_grad",
    "C103_obs_mag_grad_covered"
   ],
   "note": ""
  },
  {
   "property": "C104",
   "status": "proved",
   "theorems": [
    "C104_bursty_grad",
    "C104_bursty_u_grad",
    "C104_bursty_u_jax_grad"
   ],
   "note": ""
  },
  {
   "property": "C105",
   "status": "proved",
   "theorems": [
    "C105_cosmology_grad",
    "C105_distance_modulus_grad",
    "C105_cosmology_jax_grad"
   ],
   "note": ""
  },
  {
   "property": "C106",
   "status": "proved",
   "theorems": [
    "C106_zero_scatter_weights",
    "C106_zero_scatter_sed",
    "C106_distance_modulus_z0"
   ],
   "note": ""
  },
  {
   "property": "C107",
   "status": "proved",
   "theorems": [
    "C107_transmission_grad",
    "C107_transmission_one_sided",
    "C107_attenuation_grad",
    "C107_sbl18_jax_grad",
    "C107_triweight_grad",
    "C107_effective_wavelength_grad"
   ],
   "note": ""
  },
  {
   "property": "C108",
   "status": "proved",
   "theorems": [
    "C108_imf_grad",
    "C108_umzr_grad",
    "C108_mzr_grad",
    "C108_bounded_params_grad",
    "C108_umzr_u_jax_grad"
   ],
   "note": ""
  },
  {
   "property": "C109",
   "status": "proved",
   "theorems": [
    "C109_galaxy_mag_grad",
    "C109_galaxy_mag_jax_grad"
   ],
   "note": ""
  },
  {
   "property": "C110",
   "status": "proved",
   "theorems": [
    "C110_no_import_error",
    "C110_executed_once",
    "C110_constants_fixed",
    "C110_first_import",
    "C110_today_single_precision",
    "C110_flag_after_import"
   ],
   "note": ""
  },
  {
   "property": "C111",
   "status": "proved",
   "theorems": [
    "C111_jit_transparent",
    "C111_assignment_ignored",
    "C111_unbounded_fixed_at_import",
    "C111_roundtrip_broken",
    "C111_roundtrip_after_assignments"
   ],
   "note": ""
  },
  {
   "property": "C112",
   "status": "proved",
   "theorems": [
    "C112_mstar_obs",
    "C112_age_weights",
    "C112_growth_rate",
    "C112_mstar_obs_float64",
    "C112_age_weights_float64"
   ],
   "note": ""
  },
  {
   "property": "C113",
   "status": "proved",
   "theorems": [
    "C113_lgmet_weights",
    "C113_lgmet_at_ages",
    "C113_lgmet_table_weights",
    "C113_lgmet_weights_float64",
    "C113_lgmet_table_weights_float64"
   ],
   "note": ""
  },
  {
   "property": "C114",
   "status": "proved",
   "theorems": [
    "C114_age_weights_l1",
    "C114_sed_lognormal",
    "C114_sed_met_table",
    "C114_age_weights_float64",
    "C114_sed_lognormal_float64",
    "C114_sed_met_table_float64"
   ],
   "note": ""
  },
  {
   "property": "C115",
   "status": "proved",
   "theorems": [
    "C115_mag_of_spectrum",
    "C115_mag_lognormal",
    "C115_mag_met_table"
   ],
   "note": ""
  },
  {
   "property": "C116",
   "status": "proved",
   "theorems": [
    "C116_cutoff_inactive",
    "C116_float64",
    "C116_cutoff_residual",
    "C116_cutoff_active",
    "C116_float32"
   ],
   "note": ""
  },
  {
   "property": "C117",
   "status": "proved",
   "theorems": [
    "C117_expansion_rate",
    "C117_distances",
    "C117_distance_modulus",
    "C117_times",
    "C117_age_at_z",
    "C117_rho_crit",
    "C117_comoving_volume",
    "C117_virial_time",
    "C117_float64",
    "C117_float32",
    "C117_results_exist"
   ],
   "note": ""
  },
  {
   "property": "C118",
   "status": "proved",
   "theorems": [
    "C118_rest_flux",
    "C118_rest_mag",
    "C118_obs_mag_no_dimming",
    "C118_dimming",
    "C118_obs_mag",
    "C118_dimming_from_table",
    "C118_float64",
    "C118_float32",
    "C118_obs_mag_lognormal",
    "C118_obs_mag_met_table",
    "C118_results_exist"
   ],
   "note": ""
  },
  {
   "property": "C119",
   "status": "proved",
   "theorems": [
    "C119_age_weights",
    "C119_lgmet_weights_lognormal",
    "C119_lgmet_weights_table",
    "C119_ssp_weights_lognormal",
    "C119_ssp_weights_met_table",
    "C119_rest_sed_lognormal",
    "C119_rest_sed_met_table"
   ],
   "note": ""
  },
  {
   "property": "C120",
   "status": "proved",
   "theorems": [
    "C120_flux_accepted",
    "C120_flux_wrong_count_raises",
    "C120_flux_transposed_accepted",
    "C120_flux_missing_axes",
    "C120_flux_stack_wrong_axes",
    "C120_time_table_raises",
    "C120_age_grid_raises",
    "C120_lgmet_grid_raises",
    "C120_sfr_table",
    "C120_lgmet_table_raises",
    "C120_t_obs_accepted",
    "C120_t_obs_batch_normalisation",
    "C120_sed_t_obs_batch_raises",
    "C120_lgmet_batch_raises"
   ],
   "note": ""
  },
  {
   "property": "C121",
   "status": "proved",
   "theorems": [
    "C121_scalar",
    "C121_age_at_z",
    "C121_vectorised",
    "C121_vectorised_scalar_raises",
    "C121_virial_time",
    "C121_rho_crit",
    "C121_comoving_array",
    "C121_comoving_one_element",
    "C121_comoving_256_wrong",
    "C121_scaled_array",
    "C121_lookback_array",
    "C121_more_dimensions"
   ],
   "note": ""
  },
  {
   "property": "C122",
   "status": "proved",
   "theorems": [
    "C122_documented",
    "C122_filter_stack",
    "C122_constant_transmission",
    "C122_spectrum_raises",
    "C122_filter_raises",
    "C122_redshift_array",
    "C122_obsmag_table",
    "C122_restmag_table",
    "C122_kcorrect_table",
    "C122_table_raises"
   ],
   "note": ""
  },
  {
   "property": "C123",
   "status": "partial",
   "theorems": [
    "C123_legend_swapped",
    "C123_legend_wrong",
    "C123_colours"
   ],
   "note": "False: the labels of the two models are exchanged in every figure (C123_legend_swapped, C123_legend_wrong). The redshift colours are right (C123_colours)."
  },
  {
   "property": "C124",
   "status": "proved",
   "theorems": [
    "C124_returns_iff",
    "C124_effects",
    "C124_figures_leak",
    "C124_points"
   ],
   "note": ""
  },
  {
   "property": "C125",
   "status": "partial",
   "theorems": [
    "C125_freq_exact",
    "C125_wave_exact",
    "C125_freq_overflow",
    "C125_wave_overflow",
    "C125_sum_overflow",
    "C125_freq_finite",
    "C125_wave_finite",
    "C125_freq_gradient",
    "C125_wave_gradient",
    "C125_freq_single",
    "C125_wave_single"
   ],
   "note": "False of the code. True in exact arithmetic (C125_freq_exact, C125_wave_exact). In double precision the gradient with respect to the temperature is finite up to h nu/(k T) = 709.782 (C125_*_finite), the exact derivative in a window up to 200 (C125_*_gradient), and nan from 709.783 on, where the value is still a clean zero (C125_*_overflow, C125_sum_overflow). In single precision it is never finite up to 7800 K (C125_*_single)."
  },
  {
   "property": "C126",
   "status": "partial",
   "theorems": [
    "C126_crash_points",
    "C126_whole_run",
    "C126_no_mixture",
    "C126_unnoticed_loss",
    "C126_old_file",
    "C126_arguments",
    "C126_histories",
    "C126_recovery",
    "C126_lineless_data",
    "C126_end_to_end",
    "C126_shipped_table_ascii"
   ],
   "note": "One part is false: interrupted after the four arrays and before the line names, the script leaves a file that loads without error but has lost all emission lines (C126_unnoticed_loss). Everything else is proved for every crash point and history (C126_crash_points, C126_no_mixture, C126_histories, C126_recovery, C126_old_file, C126_arguments)."
  },
  {
   "property": "C127",
   "status": "partial",
   "theorems": [
    "C127_float_grid",
    "C127_int_widths",
    "C127_int_exact_iff",
    "C127_arange_safe",
    "C127_tables_safe",
    "C127_int_edges",
    "C127_int_grid_differs"
   ],
   "note": "False for unevenly spaced integer grids: the widths are truncated (C127_int_grid_differs: the metallicity grid -3, -1, 0 puts all stars in another bin). Proved: exact value and size of the effect (C127_int_widths, C127_int_edges), exactly when there is none (C127_int_exact_iff), evenly spaced grids and tables of times and rates are safe (C127_arange_safe, C127_tables_safe)."
  },
  {
   "property": "C128",
   "status": "proved",
   "theorems": [
    "C128_freq_density",
    "C128_wave_density",
    "C128_float64",
    "C128_denominator_vanishes",
    "C128_results_exist"
   ],
   "note": ""
  },
  {
   "property": "C129",
   "status": "proved",
   "theorems": [
    "C129_curve",
    "C129_noll09",
    "C129_sbl18",
    "C129_transmission",
    "C129_transmission_of_curve",
    "C129_noll09_transmission",
    "C129_sbl18_transmission",
    "C129_transmission_in_range",
    "C129_results_exist",
    "C129_float64"
   ],
   "note": ""
  },
  {
   "property": "C130",
   "status": "proved",
   "theorems": [
    "C130_sigmoid",
    "C130_inverse_sigmoid",
    "C130_sig_slope",
    "C130_tw_cuml_kern",
    "C130_tw_sigmoid",
    "C130_triweighted_histogram_kernel",
    "C130_triweight_gaussian",
    "C130_tw_sig_slope",
    "C130_powerlaw_pdf",
    "C130_log_remnant_mass",
    "C130_returned_mass",
    "C130_surviving_mstar",
    "C130_mzr_model_t0",
    "C130_maiolino08_metallicity_evolution",
    "C130_delta_logz_vs_t_lookback",
    "C130_delta_logz_at_t_lookback",
    "C130_mzr_evolution_model",
    "C130_mzr_model",
    "C130_att_curve_from_k_lambda",
    "C130_frac_transmission_from_k_lambda",
    "C130_calzetti00_k_lambda",
    "C130_leitherer02_k_lambda",
    "C130_l02_below_c00_above",
    "C130_power_law_vband_norm",
    "C130_drude_bump",
    "C130_noll09_k_lambda",
    "C130_noll09_k_att_curve",
    "C130_sbl18_k_lambda",
    "C130_sbl18_k_att_curve",
    "C130_calzetti00_att_curve",
    "C130_leitherer02_att_curve",
    "C130_triweight_k_lambda",
    "C130_get_eb_from_delta",
    "C130_freq_density_denom",
    "C130_blackbody_freq_density",
    "C130_wave_density_denom",
    "C130_blackbody_wave_density",
    "C130_rho_de_z",
    "C130_Ez",
    "C130_hubble_time",
    "C130_rho_crit",
    "C130_Om_at_z",
    "C130_umzr_mzr_model_t0",
    "C130_umzr_delta_logz_vs_t_lookback",
    "C130_umzr_delta_logz_at_t_lookback",
    "C130_umzr_mzr_evolution_model",
    "C130_umzr_mzr_model",
    "C130_umzr_get_mzr_t0_slope_hi_from_unbounded",
    "C130_umzr_get_u_mzr_t0_slope_hi_from_bounded",
    "C130_get_lgyr_peak_from_u_lgyr_peak",
    "C130_get_lgfburst_from_u_lgfburst",
    "C130_get_u_lgfburst_from_lgfburst",
    "C130_get_lgyr_max_from_lgyr_peak",
    "C130_get_u_lgyr_peak_from_lgyr_peak",
    "C130_get_u_lgyr_max_from_lgyr_peak",
    "C130_batch_shape",
    "C130_clash",
    "C130_shape_unique"
   ],
   "note": ""
  },
  {
   "property": "C131",
   "status": "partial",
   "theorems": [
    "C131_any_shapes",
    "C131_documented_partial",
    "C131_batch",
    "C131_batch_loses_mass",
    "C131_batch_copies",
    "C131_vector_raises",
    "C131_vector_pairs",
    "C131_from_u_params"
   ],
   "note": "False for batches: bursts given as arrays are normalised together (C131_batch, C131_batch_loses_mass, C131_batch_copies) or paired with the ages (C131_vector_pairs). Proved: the exact result for every shape (C131_any_shapes), the documented shapes (C131_documented_partial), when it raises (C131_vector_raises)."
  },
  {
   "property": "C132",
   "status": "proved",
   "theorems": [
    "C132_bounded",
    "C132_unbounded",
    "C132_mixed_raises"
   ],
   "note": ""
  },
  {
   "property": "C133",
   "status": "proved",
   "theorems": [
    "C133_best_fit",
    "C133_unique_fit",
    "C133_locality",
    "C133_stretch",
    "C133_translate",
    "C133_window_sampling",
    "C133_window_sampling_sharp"
   ],
   "note": ""
  },
  {
   "property": "C134",
   "status": "proved",
   "theorems": [
    "C134_finite",
    "C134_no_continuum",
    "C134_nan_pixel"
   ],
   "note": ""
  },
  {
   "property": "C135",
   "status": "proved",
   "theorems": [
    "C135_sigmoid",
    "C135_sig_slope",
    "C135_mzr_t0",
    "C135_mzr_evolution",
    "C135_mzr_model",
    "C135_umzr_model",
    "C135_bounded_params",
    "C135_surviving",
    "C135_remnant",
    "C135_umzr_float64",
    "C135_bounded_float64",
    "C135_surviving_float64",
    "C135_remnant_float64"
   ],
   "note": ""
  },
  {
   "property": "C136",
   "status": "proved",
   "theorems": [
    "C136_logistic",
    "C136_inverse",
    "C136_roundtrip",
    "C136_in_bounds",
    "C136_saturation",
    "C136_bound_exceeded",
    "C136_params_in_bounds",
    "C136_param_roundtrip",
    "C136_params_roundtrip"
   ],
   "note": ""
  },
  {
   "property": "C137",
   "status": "proved",
   "theorems": [
    "C137_pureburst",
    "C137_bursty",
    "C137_pureburst_float64",
    "C137_bursty_float64"
   ],
   "note": ""
  },
  {
   "property": "C138",
   "status": "proved",
   "theorems": [
    "C138_pureburst",
    "C138_bursty_nonneg",
    "C138_params_in_bounds",
    "C138_from_u_params",
    "C138_saturation",
    "C138_params_roundtrip",
    "C138_from_u_params_float64"
   ],
   "note": ""
  },
  {
   "property": "C139",
   "status": "proved",
   "theorems": [
    "C139_obs_mag",
    "C139_rest_mag",
    "C139_hubble_time",
    "C139_critical_density"
   ],
   "note": ""
  },
  {
   "property": "C140",
   "status": "proved",
   "theorems": [
    "C140_sed_converges",
    "C140_sed_met_history_converges",
    "C140_populated_iff",
    "C140_tables_exist",
    "C140_mass_formed",
    "C140_age_weights",
    "C140_mass_converges",
    "C140_age_weights_converge"
   ],
   "note": ""
  },
  {
   "property": "C141",
   "status": "proved",
   "theorems": [
    "C141_trapz_converges",
    "C141_flux_converges",
    "C141_ab_converges",
    "C141_obs_mag_converges",
    "C141_rest_mag_converges",
    "C141_forward_model_converges",
    "C141_grids_exist"
   ],
   "note": ""
  },
  {
   "property": "C142",
   "status": "proved",
   "theorems": [
    "C142_mass_affine",
    "C142_mass_monotone",
    "C142_mass_superposition",
    "C142_sed_superposition",
    "C142_mass_scaling",
    "C142_age_weights_scaling",
    "C142_sed_scaling",
    "C142_not_monotone"
   ],
   "note": ""
  },
  {
   "property": "C143",
   "status": "proved",
   "theorems": [
    "C143_band_extinction",
    "C143_rest_extinction",
    "C143_grey",
    "C143_dims",
    "C143_reddens",
    "C143_screens_add",
    "C143_screen_before_or_after",
    "C143_package_curves_redden"
   ],
   "note": ""
  },
  {
   "property": "C144",
   "status": "proved",
   "theorems": [
    "C144_moments",
    "C144_dominance",
    "C144_mean",
    "C144_scatter",
    "C144_sed",
    "C144_sed_met_table"
   ],
   "note": ""
  },
  {
   "property": "C145",
   "status": "proved",
   "theorems": [
    "C145_passive",
    "C145_fading",
    "C145_quenched",
    "C145_quenched_light"
   ],
   "note": ""
  },
  {
   "property": "C146",
   "status": "proved",
   "theorems": [
    "C146_older_peak",
    "C146_longer",
    "C146_light",
    "C146_brightens"
   ],
   "note": ""
  },
  {
   "property": "C147",
   "status": "proved",
   "theorems": [
    "C147_spectrum_tabulation",
    "C147_wavelength_units",
    "C147_filter_padding",
    "C147_padding_open_filter",
    "C147_fades_with_redshift",
    "C147_mass_is_integral",
    "C147_history_tabulation"
   ],
   "note": ""
  },
  {
   "property": "C148",
   "status": "proved",
   "theorems": [
    "C148_documented",
    "C148_constant_flux",
    "C148_line_centres",
    "C148_square_flux",
    "C148_accepted_iff",
    "C148_wave_raises",
    "C148_limits_raise"
   ],
   "note": ""
  },
  {
   "property": "C149",
   "status": "proved",
   "theorems": [
    "C149_mixture",
    "C149_between",
    "C149_colour_between",
    "C149_galaxy",
    "C149_galaxy_rest",
    "C149_effective_in_band",
    "C149_effective_extinction",
    "C149_effective_falling",
    "C149_dusty_galaxy"
   ],
   "note": ""
  },
  {
   "property": "C150",
   "status": "proved",
   "theorems": [
    "C150_volume_grad",
    "C150_volume_jax_grad",
    "C150_powerlaw_pdf_grad",
    "C150_powerlaw_rvs_grad",
    "C150_burst_unbounding_grad",
    "C150_burst_bounding_grad",
    "C150_mzr_unbounding_grad",
    "C150_mzr_unbounding_jax_grad",
    "C150_mzr_unbounding_nan"
   ],
   "note": ""
  },
  {
   "property": "C151",
   "status": "proved",
   "theorems": [
    "C151_decomposition_grad",
    "C151_kernels_agree",
    "C151_flux_jax_grad",
    "C151_euler",
    "C151_line_pixel",
    "C151_edges_no_grad",
    "C151_edge_jump",
    "C151_zero_continuum_nan"
   ],
   "note": ""
  },
  {
   "property": "C152",
   "status": "proved",
   "theorems": [
    "C152_effective_wavelength",
    "C152_effective_wavelength_in_band",
    "C152_powerlaw_pdf",
    "C152_powerlaw_draw",
    "C152_powerlaw_draw_negative",
    "C152_negative_index_loses_accuracy",
    "C152_results_exist",
    "C152_float64"
   ],
   "note": ""
  },
  {
   "property": "C153",
   "status": "proved",
   "theorems": [
    "C153_mass",
    "C153_interval_mass",
    "C153_age_weights",
    "C153_bursty_age_weights",
    "C153_sed",
    "C153_magnitudes",
    "C153_forward_model"
   ],
   "note": ""
  },
  {
   "property": "C154",
   "status": "proved",
   "theorems": [
    "C154_expansion_rate",
    "C154_matter",
    "C154_dark_energy",
    "C154_modulus",
    "C154_redshift",
    "C154_magnitudes"
   ],
   "note": ""
  },
  {
   "property": "C155",
   "status": "proved",
   "theorems": [
    "C155_lgmet_weights",
    "C155_scatter",
    "C155_sed",
    "C155_transmission",
    "C155_magnitudes"
   ],
   "note": ""
  },
  {
   "property": "C156",
   "status": "proved",
   "theorems": [
    "C156_grid_error",
    "C156_sed_met_history",
    "C156_sed_lognormal",
    "C156_outside",
    "C156_converges",
    "C156_converges_lognormal",
    "C156_grids_exist"
   ],
   "note": ""
  },
  {
   "property": "C157",
   "status": "proved",
   "theorems": [
    "C157_obs_mag_met_history",
    "C157_obs_mag_lognormal",
    "C157_rest_mag_met_history",
    "C157_rest_mag_lognormal"
   ],
   "note": ""
  },
  {
   "property": "C158",
   "status": "proved",
   "theorems": [
    "C158_uniform",
    "C158_uneven"
   ],
   "note": ""
  },
  {
   "property": "C159",
   "status": "proved",
   "theorems": [
    "C159_modes_agree",
    "C159_galaxy_modes_agree",
    "C159_zero_scatter_weights",
    "C159_zero_scatter_sed",
    "C159_mzr_unbounding"
   ],
   "note": ""
  },
  {
   "property": "C160",
   "status": "proved",
   "theorems": [
    "C160_lgmet_weights_derivs",
    "C160_galaxy_mag_derivs",
    "C160_galaxy_mag_hessian",
    "C160_age_weights_derivs",
    "C160_burst_derivs",
    "C160_cosmology_derivs"
   ],
   "note": ""
  },
  {
   "property": "C161",
   "status": "proved",
   "theorems": [
    "C161_flux_pixel",
    "C161_magnitude_pixel",
    "C161_line_missed",
    "C161_mass_rate",
    "C161_metallicity_plateau",
    "C161_ssp_used",
    "C161_metallicity_sed"
   ],
   "note": ""
  },
  {
   "property": "C162",
   "status": "proved",
   "theorems": [
    "C162_population_grad",
    "C162_population_jax_grad",
    "C162_population_smooth",
    "C162_history_grad",
    "C162_history_jax_grad"
   ],
   "note": ""
  },
  {
   "property": "C163",
   "status": "proved",
   "theorems": [
    "C163_distances",
    "C163_times",
    "C163_rest_mag_single",
    "C163_rest_mag_double",
    "C163_rest_mag_underflow",
    "C163_obs_mag_single",
    "C163_obs_mag_double",
    "C163_obs_mag_underflow",
    "C163_underflow_is_spurious"
   ],
   "note": ""
  },
  {
   "property": "C164",
   "status": "proved",
   "theorems": [
    "C164_weights",
    "C164_weights_met_table",
    "C164_spectrum",
    "C164_spectrum_met_table",
    "C164_rest_mag",
    "C164_obs_mag",
    "C164_obs_mag_met_table"
   ],
   "note": ""
  },
  {
   "property": "C165",
   "status": "proved",
   "theorems": [
    "C165_umzr",
    "C165_mzr",
    "C165_remnant_mass",
    "C165_surviving_mstar",
    "C165_dust_calzetti",
    "C165_dust_leitherer",
    "C165_dust_noll",
    "C165_dust_sbl",
    "C165_burst",
    "C165_burst_unbounded"
   ],
   "note": ""
  },
  {
   "property": "C166",
   "status": "proved",
   "theorems": [
    "C166_bursty",
    "C166_metallicity",
    "C166_sed_met",
    "C166_trapz",
    "C166_interp",
    "C166_flux",
    "C166_obs_mag",
    "C166_rest_mag",
    "C166_mass_between",
    "C166_mass_formed",
    "C166_age_weights",
    "C166_sed",
    "C166_populated",
    "C166_trapz_sharp",
    "C166_tables_exist",
    "C166_grids_exist"
   ],
   "note": ""
  },
  {
   "property": "C167",
   "status": "proved",
   "theorems": [
    "C167_rate",
    "C167_rate_bound",
    "C167_mass_lipschitz",
    "C167_age_weights_lipschitz",
    "C167_onset",
    "C167_onset_late",
    "C167_rate_exceeds",
    "C167_bursty"
   ],
   "note": ""
  },
  {
   "property": "C168",
   "status": "proved",
   "theorems": [
    "C168_observation_time_bursty",
    "C168_history_bursty",
    "C168_hubble_scaling",
    "C168_hubble",
    "C168_cosmology",
    "C168_exact_age",
    "C168_mag_between",
    "C168_rest_mag_between",
    "C168_mag_relative",
    "C168_observation_time",
    "C168_history",
    "C168_history_met",
    "C168_metallicity_at_birth",
    "C168_observation_time_met"
   ],
   "note": ""
  }
 ]
}