#!/usr/bin/env python3
"""Source of /verif/properties.jsonl (run: python3 tools/gen_properties.py)."""
import json, os
P = []
def p(title, statement, quantifier, why, anchors):
    P.append(dict(id="C%02d" % (len(P) + 1), title=title, statement=statement,
                  quantifier=quantifier, why_tests_cant=why, anchors=anchors))
U = "dsps/utils.py"
AW = "dsps/sed/stellar_age_weights.py"
MW = "dsps/sed/metallicity_weights.py"
SW = "dsps/sed/ssp_weights.py"
SS = "dsps/sed/stellar_sed.py"
DB = "dsps/sfh/diffburst.py"
UM = "dsps/metallicity/umzr.py"
MZ = "dsps/metallicity/mzr.py"
SM = "dsps/imf/surviving_mstar.py"
RM = "dsps/imf/remnant_mass.py"
PK = "dsps/photometry/photometry_kernels.py"
PP = "dsps/photometry/photpop.py"
PU = "dsps/photometry/utils.py"
CO = "dsps/cosmology/flat_wcdm.py"
AC = "dsps/dust/att_curves.py"
BB = "dsps/dust/blackbody.py"
DU = "dsps/dust/utils.py"
EW = "dsps/em_lines/equivalent_width.py"
LE = "dsps/data_loaders/load_emline_info.py"
LF = "dsps/data_loaders/load_filter_data.py"
LS = "dsps/data_loaders/load_ssp_data.py"
RF = "dsps/data_loaders/retrieve_fsps_data.py"
FK = "dsps/data_loaders/retrieve_fake_fsps_data.py"
WR = "scripts/write_fsps_data_to_disk.py"

p("Triweight kernel is a cumulative distribution",
  "The triweight error-function used for all soft binning takes values in [0,1], never decreases as its argument grows, is exactly 0 three widths below the centre, exactly 1 three widths above, 1/2 at the centre, and is point-symmetric about the centre.",
  "every real argument, centre and positive width",
  "a continuum of arguments; a wrong coefficient or boundary can hide between sampled points",
  [U + ":_tw_cuml_kern"])
p("Triweight density is the derivative of the triweight CDF",
  "triweight_gaussian is non-negative, vanishes farther than 3 widths from the centre, is at every point (including the two edges of the support) the exact derivative of the triweight CDF, and integrates to 1 over its support.",
  "every real argument, centre and positive width",
  "derivative and integral identities are statements about all points; finite differences only approximate them",
  [U + ":triweight_gaussian", U + ":_tw_cuml_kern"])
p("Triweighted histogram is a non-negative partition of the kernel mass",
  "For sorted bin edges every bin of triweighted_histogram is non-negative, the bins sum to the kernel mass between first and last edge (whatever the interior edges are), so the sum is at most 1 and is exactly 1 when the kernel support lies within the edges; a bin farther than 3 widths from x gets exactly 0.",
  "every x, every positive width, every number and placement of bin edges",
  "needs all bin counts and placements", [U + ":triweighted_histogram", U + ":_triweighted_histogram_kernel"])
p("Single-point triweights form a probability vector",
  "_get_triweights_singlepoint returns non-negative weights that sum to exactly 1 for every point, including points far outside the bins (first/last bin gets all the weight), so no galaxy loses or gains mass when binned.",
  "every x, positive width, every sorted edge array with first < last",
  "the zero-sum fallback is only reached for out-of-range points; a test samples a few of them",
  [U + ":_get_triweights_singlepoint", U + ":_fill_empty_weights_singlepoint"])
p("Bin edges bracket their bins in order",
  "_get_bin_edges returns one more edge than mids, its first and last edges are the requested limits, and (for increasing mids inside the limits) the edges are strictly increasing with each mid inside its own bin.",
  "every increasing grid of at least three mids and every pair of limits outside the grid",
  "only specific irregular grids break the ordering; random or uniform test grids never meet them",
  [U + ":_get_bin_edges", U + ":_jax_get_dt_array"])
p("Cell widths tile the axis",
  "_jax_get_dt_array gives every cell of a strictly increasing grid a positive width, the widths sum to the full extent of the extrapolated grid, the sum over a run of interior cells is the distance between the bracketing midpoints, and on a uniform grid every width equals the spacing.",
  "every strictly increasing grid with at least three points",
  "any grid length and spacing", [U + ":_jax_get_dt_array"])
p("Bounding sigmoid stays strictly inside its bounds and is monotone",
  "_sigmoid maps every real input strictly between ylo and yhi, is strictly increasing when k>0 and ylo<yhi, and equals the midpoint at x0.",
  "every x, x0, positive k, and bounds ylo<yhi", "unbounded real domain", [U + ":_sigmoid"])
p("Sigmoid and inverse sigmoid are mutually inverse",
  "_inverse_sigmoid(_sigmoid(x)) = x for every real x, and _sigmoid(_inverse_sigmoid(y)) = y for every y strictly between the bounds.",
  "every x, every y in the open interval, every x0, nonzero k and distinct bounds",
  "tests check a grid with tolerance 1e-2", [U + ":_inverse_sigmoid", U + ":_sigmoid"])
p("Rolling-slope function passes through its tipping point with bounded slope",
  "_sig_slope and _tw_sig_slope return ytp at x = xtp, and elsewhere the chord slope from (xtp, ytp) always lies between lo and hi.",
  "every x and all parameters", "unbounded domain", [U + ":_sig_slope", U + ":_tw_sig_slope", U + ":_tw_sigmoid"])
p("cumtrapz is the running trapezoidal integral",
  "cumtrapz starts at 0, its k-th entry equals trapz of the first k+1 samples (so the last entry equals trapz of everything), each increment is the trapezoid area of that interval, and it never decreases for non-negative integrands on a sorted grid.",
  "every array length, grid and integrand", "the scan carries state through any number of steps",
  [U + ":cumtrapz", U + ":_cumtrapz_scan_func", U + ":trapz"])
p("trapz is linear, positive and exact for straight lines",
  "trapz is linear in the integrand, non-negative and monotone for sorted grids, exact for affine integrands on any grid, reverses sign on reversed grids and is additive when the interval is split at a sample.",
  "every grid length and integrand", "all sizes and values", [U + ":trapz"])
p("Cumulative stellar mass is positive, increasing and causal",
  "cumulative_mstar_formed is strictly positive and strictly increasing for positive SFR, equals 1e9 times the exact trapezoid sum of the padded history, and its value at a table time does not depend on the SFR at later table times.",
  "every increasing time table starting after T_BIRTH_MIN and every positive SFH",
  "a statement about all histories and all lengths", [U + ":cumulative_mstar_formed"])
p("Star formation before the first table entry follows the documented assumption",
  "The mass formed before t_table[0] is the mass implied by the documented constant SFR of SFR_MIN over (T_BIRTH_MIN, t_table[0]).",
  "every time table and SFH", "tests only check positivity of the result", [U + ":cumulative_mstar_formed"])
p("Weight-matrix kernels are outer products that conserve total weight",
  "_mult_2d_vmap/_mult_3d_vmap (and the per-galaxy batched versions) put w1[i]*w2[j](*w3[k]) at index [i,j(,k)], so the total is the product of the totals and unit-sum inputs give unit-sum matrices whose marginals are the inputs.",
  "every shape and every weight vector", "all shapes", [U + ":_mult_2d_vmap", U + ":_mult_3d_vmap", U + ":_get_weight_matrices_2d", U + ":_get_weight_matrices_3d"])
p("Power-law PDF is a normalised density",
  "powerlaw_pdf is positive on [a,b] and integrates to exactly 1 over [a,b].",
  "every 0<a<b and every nonzero index g, positive or negative",
  "an integral over a continuum for all parameters", [U + ":powerlaw_pdf"])
p("Power-law sampler inverts the power-law CDF",
  "For every uniform deviate r in [0,1] powerlaw_rvs returns a value in [a,b], is increasing in r, and the powerlaw_pdf mass below the returned value is exactly r. Hence, with independent uniform deviates, an array of draws has independent entries whose densities are exactly powerlaw_pdf on [a,b].",
  "every 0<a<b, nonzero g, r in [0,1]", "sampling tests only check range for a few g>1", [U + ":powerlaw_rvs", U + ":powerlaw_pdf"])
p("Stellar age weights are a probability distribution",
  "calc_age_weights_from_sfh_table returns weights that are non-negative and sum to exactly 1 whenever any stars can have formed by t_obs.",
  "every increasing time table, every SFH, every increasing SSP age grid, every t_obs",
  "holds or fails depending on irregular grids and edge times that sampled tests do not meet",
  [AW + ":calc_age_weights_from_sfh_table", AW + ":_calc_age_weights_from_logsm_table"])
p("No stars older than the universe",
  "Age bins whose younger edge corresponds to a birth time at or before the first table time receive exactly zero weight.",
  "every table, SFH, age grid, t_obs and bin index", "all bins at all observation times", [AW + ":_get_lgt_birth", AW + ":calc_age_weights_from_sfh_table"])
p("Age weights do not depend on the future",
  "Two star-formation histories that agree at all table times up to and including the first table time at or after t_obs give identical age weights at t_obs.",
  "every pair of histories, tables, age grids and t_obs", "a two-run (relational) property", [AW + ":calc_age_weights_from_sfh_table", U + ":cumulative_mstar_formed"])
p("Age weight of a bin is its share of the mass formed",
  "The age weight of bin i equals the stellar mass formed between the birth times of the two edges of the bin divided by the total over all bins, where the mass history is the log-log interpolation of the cumulative mass; sums over runs of bins telescope.",
  "every history, age grid, t_obs, bin", "all bins and histories", [AW + ":_calc_age_weights_from_logsm_table", AW + ":_get_lg_age_bin_edges"])
p("Lognormal metallicity weights are a probability distribution",
  "calc_lgmet_weights_from_lognormal_mdf returns non-negative weights summing to exactly 1 for every galaxy metallicity, however far outside the SSP grid.",
  "every gal_lgmet, positive scatter, every SSP metallicity grid", "boundary fallback and irregular grids", [MW + ":calc_lgmet_weights_from_lognormal_mdf"])
p("Metallicity-table weights are normalised over the whole matrix",
  "calc_lgmet_weights_from_lgmet_table returns a (n_met, n_age) non-negative matrix whose every age column sums to 1/n_age, hence total 1.",
  "every metallicity history, SSP grids, t_obs, positive scatter", "all shapes and histories", [MW + ":calc_lgmet_weights_from_lgmet_table"])
p("Joint SSP weights (lognormal MDF) factorise and have the advertised marginals",
  "calc_ssp_weights_sfh_table_lognormal_mdf returns weights[i,j] = lgmet_weights[i]*age_weights[j], total exactly 1, row sums equal lgmet_weights and column sums equal age_weights.",
  "every galaxy and SSP grid for which the age weights are normalised", "all shapes and inputs", [SW + ":calc_ssp_weights_sfh_table_lognormal_mdf"])
p("Joint SSP weights (metallicity table) preserve the age distribution",
  "calc_ssp_weights_sfh_table_met_table returns total weight exactly 1 with column sums equal to age_weights: the metallicity history cannot change the age distribution.",
  "every galaxy and SSP grid for which the age weights are normalised", "all shapes and inputs", [SW + ":calc_ssp_weights_sfh_table_met_table"])
p("Composite SED is the mass times a weighted mean of SSP spectra",
  "rest_sed at each wavelength lies between mass times the smallest and mass times the largest SSP flux at that wavelength; it is linear in ssp_flux, and if all SSPs share one spectrum it equals mass times that spectrum. Wavelengths do not interact.",
  "every galaxy, SSP grid, flux cube", "all shapes and flux cubes", [SS + ":calc_rest_sed_sfh_table_lognormal_mdf", SS + ":calc_rest_sed_sfh_table_met_table"])
p("SED mass normalisation is the mass formed at t_obs and sfr_min acts consistently",
  "When t_obs is a table time the mass factor is the cumulative mass formed at that time, before the table it is the first entry and after the table the last; the sfr_min argument affects weights and normalisation alike.",
  "every history, t_obs and sfr_min", "all inputs", [SS + ":calc_rest_sed_sfh_table_lognormal_mdf", AW + ":_calc_logsm_table_from_sfh_table"])
p("Unbounded burst parameters always map into the physical bounds",
  "For every real (u_lgfburst, u_lgyr_peak, u_lgyr_max): -8 < lgfburst < -1, 5 < lgyr_peak < 8 and lgyr_peak + 1 < lgyr_max < 9.",
  "all of R^3", "unbounded domain; the third bound depends on the second", [DB + ":_get_params_from_u_params"])
p("Burst parameter transformation round-trips",
  "_get_u_params_from_params inverts _get_params_from_u_params on all of R^3 and vice versa on every in-bounds parameter triple. Explicitly, each parameter is a logistic curve of slope 0.1 between its bounds, centred at -2 for the mass fraction and mid-way between the bounds for the times (those of lgyr_max being lgyr_peak + 1 and 9).",
  "all of R^3 / all in-bounds triples", "tests sample 10 points with tolerance", [DB + ":_get_u_params_from_params", DB + ":_get_params_from_u_params"])
p("Pure-burst age weights: normalised, supported and peaked correctly",
  "Burst weights are non-negative, vanish for ages at or beyond lgyr_max and at or below 2*lgyr_peak - lgyr_max, decrease with distance from lgyr_peak, and sum to exactly 1 if any grid age falls inside the open support and to 0 (never NaN) otherwise.",
  "every age grid, every lgyr_peak < lgyr_max", "grids that miss the support", [DB + ":_pureburst_age_weights_from_params", DB + ":_zero_safe_normalize"])
p("Bursty age weights remain a probability distribution",
  "Adding a burst to normalised smooth age weights yields non-negative weights with total 1 for every in-bounds burst, with total exactly 1 - fb*(1 - [grid meets the burst support]) in general; outside the burst support every weight is scaled by (1 - fb).",
  "every age grid, smooth weight vector, burst parameters (bounded or unbounded)", "edge-case grids", [DB + ":calc_bursty_age_weights", DB + ":calc_bursty_age_weights_from_u_params"])
p("Public and legacy burst kernels agree",
  "calc_bursty_age_weights on ages in log-Gyr equals the lgyr-based kernel at the same ages plus 9, and the u_params variant equals the params variant after transformation.",
  "all inputs", "equality of two programs on all inputs", [DB + ":calc_bursty_age_weights", DB + ":_compute_bursty_age_weights_from_params"])
p("Bounded MZR parameters respect their bounds",
  "get_bounded_mzr_params maps every real parameter vector strictly inside MZR_PBOUNDS, and always yields 0 < mzr_t0_slope_hi < mzr_t0_slope_lo.",
  "all of R^9", "unbounded domain with one dependent bound", [UM + ":get_bounded_mzr_params", UM + ":MZR_PBOUNDS"])
p("MZR parameter transformation round-trips",
  "get_unbounded_mzr_params and get_bounded_mzr_params are mutually inverse; explicitly, each unbounded parameter is the centre of the bounds plus ten times the logarithm of (p - lo)/(hi - p) (for slope_hi: bounds 0 and slope_lo, centre 0).",
  "all of R^9 / every admissible parameter vector", "tests use tolerance 1e-2 on 100 samples", [UM + ":get_unbounded_mzr_params", UM + ":get_bounded_mzr_params"])
p("Metallicity evolution never exceeds the z=0 relation",
  "mzr_model at any cosmic time never exceeds mzr_model_t0, and is independent of time for t >= 12.5 Gyr.",
  "every mass, time and parameter vector", "unbounded domain", [UM + ":mzr_model", UM + ":mzr_evolution_model", MZ + ":mzr_model"])
p("The two MZR implementations agree on their common parameters",
  "mzr.mzr_model and umzr.mzr_model return the same value for every mass and time whenever x0=10.5 and tlook_c=8.44 (in particular for both defaults).",
  "every mass, time and remaining parameters", "equality of two programs", [MZ + ":mzr_model", UM + ":mzr_model"])
p("Mass-metallicity relation increases with stellar mass",
  "For bounded parameters mzr_model_t0 is non-decreasing in stellar mass.",
  "every in-bounds parameter vector and mass", "the test allows a tolerance and samples", [UM + ":mzr_model_t0", U + ":_sig_slope"])
p("Surviving stellar fraction is a fraction",
  "surviving_mstar lies in [0,1] for every age up to 10^10.5 yr for all four shipped IMF calibrations; it decreases strictly with age from 10^6.6 yr on, is at least 0.99 for populations younger than 10^5 yr, and at 10^8 yr equals 1-a up to one per cent of a, with a the calibration coefficient.",
  "every lg_age_yr <= 10.5 and each IMF", "continuum of ages", [SM + ":surviving_mstar"])
p("Remnant fraction is a fraction that grows with age",
  "remnant_mass is positive, below 1 up to 10^13 yr, and strictly increasing in age for all four shipped IMF calibrations.",
  "every age and each IMF", "continuum of ages", [RM + ":remnant_mass"])
p("Magnitudes respond to flux scaling by the Pogson law",
  "Multiplying an SED by c>0 changes calc_rest_mag, the no-dimming magnitude and calc_obs_mag by exactly -2.5 log10 c.",
  "every SED, filter, redshift, cosmology and c>0 with non-zero in-band flux", "all inputs", [PK + ":calc_rest_mag", PK + ":calc_obs_mag"])
p("AB zero point",
  "An SED equal to AB0 at all wavelengths covering the filter has magnitude exactly 0 in every filter; c*AB0 has magnitude -2.5 log10 c.",
  "every filter with non-zero throughput and every SED grid covering it", "all filters", [PK + ":calc_rest_mag", PK + ":_flux_ab0_at_10pc"])
p("Magnitudes do not depend on filter normalisation",
  "Multiplying a transmission curve by any non-zero constant changes no magnitude.",
  "every SED, filter, constant, redshift", "all inputs", [PK + ":calc_rest_flux", PK + ":calc_obs_mag"])
p("Fluxes are additive and monotone in the SED",
  "calc_rest_flux of a sum of SEDs is the sum of the fluxes; a pointwise brighter SED never has smaller flux nor (if flux is positive) larger magnitude. SED samples outside the filter's wavelength neighbourhood are irrelevant.",
  "every pair of SEDs, filters with non-negative transmission", "all inputs", [PK + ":calc_rest_flux", PK + ":_rest_flux_ssp"])
p("Rest and observed magnitudes agree at z=0",
  "At redshift 0 the no-dimming observed magnitude equals calc_rest_mag, and so do the precomputed tables (k-correction to z=0).",
  "every SED and filter", "all inputs", [PK + ":_calc_obs_mag_no_dimming", PP + ":precompute_ssp_restmags_z_kcorrect"])
p("Observing at redshift z equals using a blue-shifted filter",
  "The no-dimming magnitude at redshift z equals the rest-frame magnitude through the same filter with wavelengths divided by (1+z).",
  "every SED, filter, z>=0", "relational property over all inputs", [PK + ":_obs_flux_ssp", PK + ":_rest_flux_ssp"])
p("Precomputed photometry tables hold the scalar kernel at each index",
  "Entry [iz, im, ia, f] of precompute_ssp_obsmags_on_z_table is calc_obs_mag of SED (im, ia) in filter f at z_table[iz]; likewise for the rest-frame and k-corrected tables.",
  "every shape and index", "axis order for all shapes", [PP + ":precompute_ssp_obsmags_on_z_table", PP + ":precompute_ssp_restmags", PP + ":precompute_ssp_restmags_z_kcorrect"])
p("Filter re-interpolation preserves range and end points",
  "interpolate_filter_trans_curves returns for every curve the same number n of points (default: shortest curve), starting and ending at the curve's own end wavelengths and transmissions, with values within the curve's own range and independent of the other curves.",
  "every collection of curves and n >= 2", "all collections", [PU + ":interpolate_filter_trans_curves"])
p("Effective wavelength lies in the blue-shifted passband",
  "get_filter_effective_wavelength lies between the smallest and largest filter wavelength divided by (1+z), is independent of filter normalisation and scales as 1/(1+z).",
  "every filter with non-negative, somewhere positive transmission; every z>-1", "all filters", [DU + ":get_filter_effective_wavelength"])
p("Distance duality and distance-modulus definition",
  "luminosity distance = (1+z)^2 * angular diameter distance = (1+z) * comoving distance, and distance modulus = 5 log10(d_L / 10 pc), so observed magnitude dims exactly by the modulus minus 2.5 log10(1+z).",
  "every redshift and cosmology", "all inputs", [CO + ":luminosity_distance_to_z", CO + ":angular_diameter_distance_to_z", CO + ":distance_modulus_to_z", PK + ":_cosmological_dimming"])
p("Distances vanish at z=0, are positive and scale as 1/h",
  "comoving_distance_to_z is 0 at z=0, positive for z>0, inversely proportional to h; lookback_to_z and age_at_z0 likewise.",
  "every z, matter density in [0,1], w0, wa, h>0", "all cosmologies", [CO + ":comoving_distance_to_z", CO + ":lookback_to_z", CO + ":age_at_z0"])
p("Hubble-distance bound and monotonicity of distances",
  "In every flat LCDM cosmology comoving distance is at most c*z/H0 and lookback time at most the Hubble time times ln(1+z) (up to the quadrature excess (z/1022)^2), comoving distance, luminosity distance and lookback time increase strictly with redshift at every redshift and decrease with Om0.",
  "every z, Om0 in [0,1]", "all cosmologies", [CO + ":comoving_distance_to_z", CO + ":lookback_to_z"])
p("Expansion rate: normalised, positive, increasing",
  "E(0)=1 in every flat w0wa cosmology; E>0 for z>-1; in LCDM E is increasing in z and at least 1 for z>=0; the matter fraction Om(z) is in [0,1], equals Om0 at z=0 and is increasing in z. The exported integrands are 1/E(z) and 1/(E(z)(1+z)).",
  "every z and cosmology", "all cosmologies", [CO + ":_Ez", CO + ":_rho_de_z", CO + ":_Om_at_z"])
p("Age plus lookback time is the age today and age is positive",
  "age_at_z(0) = age_at_z0, age_at_z(z) + lookback_to_z(z) = age_at_z0, age_at_z decreases strictly with redshift and is positive for every z >= 0.",
  "every z >= 0 and cosmology", "tests stop at z=10", [CO + ":age_at_z", CO + ":lookback_to_z", CO + ":age_at_z0"])
p("Critical density, virial overdensity and dynamical time",
  "rho_crit = RHO_CRIT0*h^2*E^2; the virial overdensity is between 56 and 18 pi^2, equals 18 pi^2 when Om(z)=1; virial_dynamical_time is positive and strictly decreasing in z in LCDM.",
  "every z and cosmology", "all cosmologies", [CO + ":rho_crit", CO + ":_delta_vir", CO + ":virial_dynamical_time"])
p("Differential comoving volume",
  "differential_comoving_volume_at_z = (c/H0) * D_C^2 / E, non-negative, zero only at z=0, and scales as h^-3.",
  "every z and cosmology", "all cosmologies", [CO + ":differential_comoving_volume_at_z", CO + ":hubble_distance_mpc"])
p("Dust transmission fraction is between floor and 1",
  "For every reddening curve value and av, the transmitted fraction lies in [ftrans_floor, 1]; it is 1 when av=0 or the floor is 1.",
  "every k, av and floor in [0,1]", "all inputs", [AC + ":_frac_transmission_from_k_lambda", AC + ":_att_curve_from_k_lambda"])
p("Dust screens compose and more dust transmits less",
  "With no floor and k>=0 the transmission for av1+av2 is the product of the two transmissions; transmission never increases with av >= 0 (strictly decreases where k>0 and the floor is below 1).",
  "every k>=0, av's, floor", "all inputs", [AC + ":_frac_transmission_from_k_lambda"])
p("Noll and Salim curves: non-negative and consistent",
  "noll09_k_lambda and sbl18_k_lambda never go negative; they coincide with each other when the power-law slope is 0 or the bump amplitude is 0, and with the clipped base curve when both are 0.",
  "every wavelength > 0 and parameters", "all inputs", [AC + ":noll09_k_lambda", AC + ":sbl18_k_lambda", AC + ":_l02_below_c00_above"])
p("Calzetti and Leitherer curves: normalised at V, decreasing, positive where used",
  "calzetti00 attenuation at 0.55 micron equals av to 0.1%; the curve is strictly decreasing in wavelength; leitherer02 is positive for every wavelength; calzetti00 is positive below 3.1 micron.",
  "every wavelength", "continuum of wavelengths", [AC + ":calzetti00_k_lambda", AC + ":leitherer02_k_lambda"])
p("UV bump profile",
  "_drude_bump with positive amplitude is between 0 and ampl, attains ampl exactly at its centre, and is linear in ampl; power_law_vband_norm is 1 at V band and positive.",
  "every wavelength > 0, positive width", "all inputs", [AC + ":_drude_bump", AC + ":power_law_vband_norm"])
p("Blackbody frequency and wavelength densities are consistent",
  "nu*L_nu = lambda*L_lambda for lambda = c/nu in SI units, both equal Planck's law, are positive, and the Lsun/Angstrom versions are exact unit conversions.",
  "every frequency and temperature > 0", "all inputs", [BB + ":blackbody_freq_density", BB + ":blackbody_wave_density"])
p("Blackbody increases with temperature and obeys Rayleigh-Jeans and Wien",
  "At fixed frequency L_nu strictly increases with temperature, never exceeds the Rayleigh-Jeans law 2 nu^2 kT/c^2, and its maximum over frequency lies within 0.1% of the value returned by _jax_bb_frequency_peak.",
  "every frequency and temperature > 0", "all inputs", [BB + ":_blackbody_freq_density_si", BB + ":_jax_bb_frequency_peak"])
p("Equivalent width of a quadratic continuum plus line",
  "If the flux is exactly quadratic in the continuum windows (containing at least three distinct sample wavelengths) the fitted coefficients are that quadratic, the line flux is the trapezoid integral of (flux - continuum) over the line window, and a line-free spectrum has line flux and equivalent width 0.",
  "every wavelength grid, windows and flux", "all inputs", [EW + ":_ew_kernel", EW + ":_weighted_quadratic_fit"])
p("Equivalent width is scale invariant and the two kernels agree",
  "Multiplying the flux by c>0 multiplies line flux and continuum by c and leaves the equivalent width unchanged; _ew_kernel returns the first two outputs of _continuum_line_decomp_kern.",
  "every spectrum, window set, c", "all inputs", [EW + ":_ew_kernel", EW + ":_continuum_line_decomp_kern"])
p("Emission-line names are sanitised identically everywhere",
  "The name clean-up in read_emlines_info_fsps and in the FSPS retrieval apply their replacements in different orders but give the same result for every string; the result contains none of '.', '-', ' ', '[', ']' and cleaning twice changes nothing.",
  "every string", "all strings", [LE + ":read_emlines_info_fsps", RF + ":_get_emline_wave_namedtuple"])
p("Line-table parser",
  "read_emlines_info_fsps maps every well-formed file to a dictionary whose value for a name is the wavelength on the last line with that name, in order of first appearance, and raises on any line without exactly one comma.",
  "every file", "all files", [LE + ":read_emlines_info_fsps"])
p("Subsetting emission lines keeps names, wavelengths and luminosities aligned",
  "get_subset_emline_data returns exactly the requested lines in the requested order with each line's own wavelength and luminosity column, leaves every other field unchanged, fails on unknown or repeated names, and subsetting twice equals subsetting once.",
  "every SSP data set and every name list", "all name lists", [LE + ":get_subset_emline_data"])
p("Loaded transmission curves are within [0,1] and bad curves are rejected",
  "load_transmission_curve either raises or returns transmission values in [0,1]; it raises when any value is below -TOL and when any value is above 1+TOL; values already in [0,1] are returned unchanged.",
  "every file content", "all contents", [LF + ":load_transmission_curve"])
p("File resolution precedence",
  "load_ssp_templates and load_transmission_curve use fn if given, else drn, else DSPS_DRN (with the filters subdirectory), else raise; an ambiguous or empty glob raises; dummy=True ignores fn, drn, bn, the environment variable and every SSP file on disk; nothing but the resolved file is read.",
  "every combination of arguments, environments and file systems", "all combinations", [LS + ":load_ssp_templates", LF + ":load_transmission_curve"])
p("Write-then-load round trip of SSP data",
  "Data written by write_fsps_data_to_disk and read by load_ssp_templates come back unchanged except that emission-line luminosities are multiplied by L_SUN_CGS; line names and wavelengths keep their pairing; data without emission lines also round-trip.",
  "every SSP data set", "all data sets", [WR, LS + ":load_ssp_templates"])
p("Fake emission-line generator terminates",
  "load_fake_ssp_data(n_line) terminates for every n_line.",
  "every n_line and every sequence of random draws", "tests only use small n_line", [FK + ":_get_emline_wave_namedtuple"])
p("FSPS retrieval pairs every metallicity with its own spectra",
  "retrieve_ssp_data_from_fsps returns flux[i] computed with zmet = i+1, one entry per metallicity of zlegend, and attaches emission-line data iff the installed FSPS provides them; every emission line must match exactly one reference wavelength or the call raises. The call succeeds exactly when FSPS lists a metallicity, the spectra (and line luminosities) of all metallicities have the same shape, and the lines can be named.",
  "every FSPS behaviour", "FSPS is not available in tests", [RF + ":retrieve_ssp_data_from_fsps", RF + ":_get_matched_emline_name"])
p("Random transmission curves are valid filters",
  "load_random_transmission_curve returns 200 wavelengths spanning wave_range in increasing order with transmission in (0,1] attaining 1, and raises when the requested centre is outside the range; a centre that is not requested is uniformly distributed at least two widths inside the range.",
  "every wave_range, scale>0 and centre", "all inputs", [LF + ":load_random_transmission_curve"])
here = os.path.dirname(os.path.abspath(__file__))
import sys
exec(open(os.path.join(here, "more_properties.py")).read()) if os.path.exists(os.path.join(here, "more_properties.py")) else None
with open(os.path.join(here, "..", "properties.jsonl"), "w") as f:
    for x in P:
        f.write(json.dumps(x, ensure_ascii=False) + "\n")
print(len(P))
