NOTES = {
 "C05": ("partial", "False on irregular grids (C05_edges_not_monotone is a machine-checked counterexample). Proved: limits always; exact iff-characterisation of when every mid is inside its bin; bracketing under that condition and for all uniform grids."),
 "C13": ("partial", "The code does not implement the documented assumption: C13_pretable_doc_violated is a witness, C13_pretable_mass_iff the exact condition (sfh[0] = SFR_MIN) under which it holds."),
 "C17": ("partial", "Nonnegativity needs ordered age-bin edges and the normalising mass must be positive: proved for grids with mildly varying spacing whose bins meet the table; C17_negative_weight and C17_total_mass_pos_iff show both hypotheses are needed."),
 "C21": ("partial", "Same bin-edge defect as C05: proved for mildly spaced metallicity grids (and whenever edges are ordered)."),
 "C22": ("partial", "Same bin-edge defect as C05: proved whenever the metallicity bin edges are ordered."),
 "C26": ("partial", "sfr_min is used for the mass normalisation but not for the weights (the sed kernels do not forward it to the weight kernels): C26_weights_ignore_sfr_min, C26_sfr_min_inconsistent."),
 "C30": ("partial", "False when no grid age falls inside the burst support: then the weights total 1-fb (C30_mass_lost, C30_mass_lost_witness). Proved: exact total in general, and normalisation for every in-bounds burst on every grid that brackets 1-10 Myr without 2-dex gaps."),
 "C32": ("partial", "mzr_t0_slope_hi can exceed its MZR_PBOUNDS upper bound 0.3 (C32_slope_hi_exceeds); the other eight parameters and 0<slope_hi<slope_lo are proved, and the image is characterised exactly (C32_mzr_image)."),
 "C36": ("partial", "False on part of the admissible region (C36_not_monotone); C36_mzr_monotone_iff is the exact criterion for monotonicity, C36_mzr_monotone_partial a simple sufficient one."),
 "C52": ("partial", "Age plus lookback, age today and strict decrease of age with redshift are proved in full (all z >= 0). Positivity is false: C52_age_negative_at_high_z (Om0>=0.3, z>=1100), C52_age_negative_everywhere (every Om0, z>=7200); C52_age_sign: exactly one sign change, between z=35 and z=7200; positive for z<=35."),
 "C58": ("partial", "Global monotonicity is false (C58_calzetti_jump at 0.63 micron, C58_base_jump at 0.15 micron); proved: strictly decreasing on each branch, decreasing up to 0.026 globally; V-band normalisation, exact positivity range, Leitherer and triweight curves in full."),
 "C67": ("partial", "load_transmission_curve tests transmission.min() > 1+TOL where max() is meant: C67_exceeding_accepted is a machine-checked file with a value far above 1 that is accepted. Proved: what exactly is accepted (C67_check_spec, C67_load_spec), that the result is always clipped to [0,1], that negative curves are rejected, that in-range curves come back unchanged."),
 "C69": ("partial", "Round trip with emission lines proved in full. Data without lines: the writer script raises AttributeError (C69_no_lines_script_raises) after writing the four arrays, and the file it leaves behind loads back unchanged (C69_no_lines_file_loads_partial)."),
 "C70": ("partial", "False above 26^3 lines (C70_never_terminates) and for unlucky draws (C70_unlucky_draws). Proved: exact termination criterion, termination for n_line <= 17576 whenever every three-letter name is eventually drawn, termination with probability one (with a geometric tail bound) for independent uniform draws, and correctness of the result on termination."),
 "C125": ("partial", "False of the code. True in exact arithmetic (C125_freq_exact, C125_wave_exact). In double precision the gradient with respect to the temperature is finite up to h nu/(k T) = 709.782 (C125_*_finite), the exact derivative in a window up to 200 (C125_*_gradient), and nan from 709.783 on, where the value is still a clean zero (C125_*_overflow, C125_sum_overflow). In single precision it is never finite up to 7800 K (C125_*_single)."),
 "C123": ("partial", "False: the labels of the two models are exchanged in every figure (C123_legend_swapped, C123_legend_wrong). The redshift colours are right (C123_colours)."),
 "C126": ("partial", "One part is false: interrupted after the four arrays and before the line names, the script leaves a file that loads without error but has lost all emission lines (C126_unnoticed_loss). Everything else is proved for every crash point and history (C126_crash_points, C126_no_mixture, C126_histories, C126_recovery, C126_old_file, C126_arguments)."),
 "C127": ("partial", "False for unevenly spaced integer grids: the widths are truncated (C127_int_grid_differs: the metallicity grid -3, -1, 0 puts all stars in another bin). Proved: exact value and size of the effect (C127_int_widths, C127_int_edges), exactly when there is none (C127_int_exact_iff), evenly spaced grids and tables of times and rates are safe (C127_arange_safe, C127_tables_safe)."),
 "C131": ("partial", "False for batches: bursts given as arrays are normalised together (C131_batch, C131_batch_loses_mass, C131_batch_copies) or paired with the ages (C131_vector_pairs). Proved: the exact result for every shape (C131_any_shapes), the documented shapes (C131_documented_partial), when it raises (C131_vector_raises)."),
}
