
p("Quadrature accuracy of distances and times",
  "In every flat LCDM cosmology the comoving distance, lookback time and age today differ from the exact Friedmann integrals by no more than explicit error bounds (0.05 per cent for the age).",
  "every z >= 0, Om0 in [0,1], h > 0", "tests compare with astropy at a few redshifts and cosmologies", [CO + ":comoving_distance_to_z", CO + ":lookback_to_z", CO + ":age_at_z0"])

p("Stefan-Boltzmann law",
  "The blackbody frequency density integrated over all frequencies, and the wavelength density integrated over all wavelengths, both equal 2 pi^4 (kT)^4 / (15 h^3 c^2) exactly.",
  "every temperature > 0", "an improper integral over a continuum; tests use a finite grid", [BB + ":blackbody_freq_density", BB + ":blackbody_wave_density"])

p("Fake filter curves are valid transmission curves",
  "Each of the six fake LSST filter curves is a bell: values in [0,1], symmetric about its own peak wavelength, strictly increasing up to the peak and strictly decreasing after it; the six peaks are in the ugrizy order and every returned wavelength grid is strictly increasing and positive.",
  "every wavelength and band", "a continuum of wavelengths", [FK + ":load_fake_filter_data", FK + ":_lsst_u_trans"])

p("Fake SSP data are valid SSP data",
  "The fake metallicity and age grids are strictly increasing with spacing mild enough for all binning code to give probability weights; the fake spectra are strictly positive with the right shape; the fake emission-line luminosities are positive, have the requested shape and stay within the stated range, for every random draw.",
  "every random draw, number of lines, metallicity and age", "randomised data: all draws", [FK + ":load_fake_ssp_data", FK + ":_get_spectral_flux"])

p("Shipped emission-line table is well formed",
  "The packaged emlines_info.dat is accepted by both readers with the same content; all 166 sanitised names are valid, distinct Python identifiers; no wavelength whatsoever can match two entries under the matching tolerance, so matching FSPS lines to names is never ambiguous.",
  "every real wavelength and every pair of table entries", "every real wavelength", [RF + ":get_fsps_emline_info", RF + ":_get_matched_emline_name", LE + ":read_emlines_info_fsps"])

p("Unbounding transforms: where they are finite, infinite and nan",
  "Under float rules for nan and infinities the inverse sigmoid is the exact finite inverse strictly inside the bounds, -inf and +inf exactly at the lower and upper bound, and nan outside; the sigmoid of any finite number is finite, and bounded -> unbounded -> bounded is the identity on the closed interval including both ends, where the intermediate value is infinite.",
  "every finite y, x0, k > 0 and ylo < yhi", "boundary values over a continuum of bounds", [U + ":_inverse_sigmoid", U + ":_sigmoid"])

p("Metallicity weights at zero scatter",
  "For non-zero scatter the single-galaxy metallicity weights never involve nan or infinity in their kernels; with zero scatter they are a one-hot vector at the bin containing the metallicity, unless the metallicity is exactly on a bin edge, in which case all weights are nan.",
  "every metallicity, scatter and increasing edge grid", "measure-zero coincidences between a real and a grid edge", [MW + ":_get_lgmet_weights_singlegal", U + ":triweighted_histogram"])

p("Age weights and SEDs contain no nan or infinity on documented inputs",
  "For an increasing SFH table starting after 0.001 Gyr and sfr_min > 0, the age weights are all finite exactly when the mass formed before the youngest and oldest bin edge differ (in particular whenever the age bins meet the table), and then the whole SED pipeline is finite; a table whose first time is at or before 0.001 Gyr, including the one dsps itself builds with _get_linspace_time_tables, gives nan in every age bin as soon as one age bin reaches back before its second time.",
  "every table, SFH, age grid, metallicity grid, SSP flux cube, observation time", "nan conditions over all grids; tests check finiteness of a few outputs", [AW + ":calc_age_weights_from_sfh_table", SS + ":calc_rest_sed_sfh_table_lognormal_mdf", SS + ":calc_rest_sed_sfh_table_met_table", AW + ":_get_linspace_time_tables"])

p("Rest-frame magnitudes: finite, +inf or nan",
  "A rest-frame magnitude is finite exactly for positive band flux, +inf for zero flux and nan for negative flux; for a physical filter and non-negative spectrum it is never nan, and is +inf when the filter lies outside the spectrum; a filter transmitting nothing gives nan.",
  "every spectrum and filter", "all spectra and filters", [PK + ":calc_rest_mag", PK + ":_flux_ab0_at_10pc"])

p("Distance modulus and observed magnitudes at the redshift boundary",
  "Luminosity distance is finite at every redshift above -1; the distance modulus is finite for z > 0, -inf at z = 0 and nan for negative z, so apparent magnitudes are finite exactly for z > 0 and positive flux, and -inf (or nan for no flux) at z = 0.",
  "every redshift, cosmology, spectrum and filter", "boundary behaviour over all cosmologies", [CO + ":distance_modulus_to_z", CO + ":luminosity_distance_to_z", PK + ":calc_obs_mag"])

p("Blackbody: nan-free domain",
  "The blackbody densities are finite for every positive frequency or wavelength and non-zero temperature, exactly zero at zero temperature, and nan at zero or negative frequency, at negative wavelength, and at zero wavelength for positive temperatures.",
  "every frequency, wavelength and temperature", "all inputs", [BB + ":blackbody_freq_density", BB + ":blackbody_wave_density"])

p("Power law: exponent zero",
  "For 0 < a < b the power-law density and sampler are finite for every non-zero exponent and every draw in [0,1]; at exponent zero the density is nan everywhere and the sampler returns 1 for every draw.",
  "every a, b, exponent, x and draw", "all real parameters", [U + ":powerlaw_pdf", U + ":powerlaw_rvs"])

p("Bursts of zero duration",
  "Burst age weights are free of nan and infinity whenever the maximum burst age differs from the peak age; when they coincide the weights are all nan if the peak is a grid age and all zero otherwise.",
  "every age grid, peak and maximum", "coincidences between reals", [DB + ":_pureburst_age_weights_from_params", DB + ":_zero_safe_normalize"])

p("Effective wavelength: finiteness",
  "The effective wavelength of a filter at redshift above -1 is finite exactly when its transmission integral is non-zero; a filter transmitting nothing gives nan.",
  "every filter and redshift", "all filters", [DU + ":get_filter_effective_wavelength"])

p("Randomly drawn mass-metallicity parameters",
  "get_ran_t0_params returns one value per bound, in the order of the bounds dictionary, each inside its own interval [lo, hi) and each drawn with its own key of the split chain, so that with independent uniform deviates the parameters are independent and uniform in their intervals; the draws may have slope_hi above slope_lo, in which case the unbounding transformation gives nan.",
  "every key, every splittable generator and every bounds dictionary", "all keys and generators", [UM + ":get_ran_t0_params", UM + ":get_unbounded_mzr_params"])

p("Maiolino et al. (2008) mass-metallicity parabola",
  "maiolino08_metallicity_evolution is the parabola with vertex (logm0, k0-12) and curvature -0.1728: symmetric about logm0, strictly increasing below and decreasing above it, with unique maximum; it depends on the mass only relative to logm0 and shifts with k0.",
  "every mass, logm0 and k0", "all real inputs", [MZ + ":maiolino08_metallicity_evolution"])

p("Default cosmic time tables",
  "_get_linspace_time_tables returns 100 equally spaced, strictly increasing times from 0.001 Gyr to t0 inclusive, their base-10 logarithms, and cell widths all equal to the spacing.",
  "every t0 > 0.001", "every present-day time", [AW + ":_get_linspace_time_tables"])

p("Metallicity weights are smooth",
  "The single-galaxy metallicity weights are three times continuously differentiable jointly in the galaxy's metallicity and scatter for all scatter > 0, including where the distribution runs off the SSP grid and the weights are filled in by hand.",
  "every metallicity, every scatter > 0, every increasing edge grid", "differentiability at every point of a half plane; gradients at sampled points cannot establish it", [MW + ":_get_lgmet_weights_singlegal", MW + ":calc_lgmet_weights_from_lognormal_mdf", U + ":_fill_empty_weights_singlepoint"])

p("Age weights and SEDs are continuous",
  "Wherever the age bins meet the SFH table, age weights, joint weights and SEDs are jointly continuous in every SFH entry (also across the SFR floor), the metallicity or metallicity history, the scatter and the observation time.",
  "every SFH, metallicity history, scatter > 0, observation time, grid and flux cube", "continuity over a high-dimensional continuum with floors, clips and interpolation nodes", [AW + ":calc_age_weights_from_sfh_table", SS + ":calc_rest_sed_sfh_table_lognormal_mdf", SS + ":calc_rest_sed_sfh_table_met_table"])

p("Burst weights are smooth where the burst is resolved",
  "Bursty age weights are twice continuously differentiable in the burst parameters wherever the burst contains a grid age, and on every sufficiently fine grid in the unbounded parameters on all of R^3; when the burst loses its last grid age the burst weight jumps from 1 to 0.",
  "all burst parameters, smooth weights and age grids", "a jump occurs only on a measure-zero set", [DB + ":calc_bursty_age_weights", DB + ":calc_bursty_age_weights_from_u_params", DB + ":_zero_safe_normalize"])

p("Cosmological functions are smooth",
  "Comoving, luminosity and angular diameter distance, lookback time, age and Hubble time are infinitely differentiable jointly in redshift and all cosmological parameters, for every redshift above -1 (across z=0); the distance modulus likewise for z > 0.",
  "every redshift, Om0 in [0,1], w0, wa, h", "differentiability at every point", [CO + ":comoving_distance_to_z", CO + ":lookback_to_z", CO + ":age_at_z", CO + ":distance_modulus_to_z"])

p("Magnitudes are continuous in spectrum and redshift",
  "Rest-frame magnitudes are continuous in the spectrum; observed fluxes and magnitudes are jointly continuous in spectrum, redshift and cosmology as long as no filter sample sits exactly at an end of the redshifted spectrum; when a filter sample crosses the end of the spectrum the flux jumps.",
  "every spectrum, filter, redshift and cosmology", "continuity everywhere; jumps on measure-zero sets", [PK + ":calc_obs_mag", PK + ":calc_rest_mag", PK + ":_obs_flux_ssp"])

p("Age of the universe in closed form",
  "In every flat LCDM cosmology with matter and dark energy the age today equals the textbook 2/(3 sqrt(OL)) arsinh(sqrt(OL/Om)) Hubble times to within 0.05 per cent, and the lookback time equals the textbook closed form within its quadrature error; the shipped cosmologies are 13.82 (TODAY), 13.73 (WMAP5) and 13.48 (FSPS) Gyr old.",
  "every Om0 in (0,1), h > 0 and z >= 0", "a continuum of cosmologies and redshifts; tests compare with one reference value", [CO + ":age_at_z0", CO + ":lookback_to_z", CO + ":PLANCK15", "dsps/cosmology/defaults.py:TODAY"])

p("Distances and ages in w0wa cosmologies",
  "In every flat w0wa cosmology whose dark energy is neither phantom nor stiff, the comoving distance strictly increases up to z=40, the lookback time strictly increases and the age strictly decreases up to z=22, the age is positive up to z=35, and all three agree with the exact Friedmann integrals within explicit error bounds at every redshift (age: 0.05 per cent).",
  "every Om0 in [0,1], every admissible w0, wa, every h > 0, every redshift in range", "five-dimensional continuum; quadrature error can reverse the sign of a derivative anywhere", [CO + ":comoving_distance_to_z", CO + ":lookback_to_z", CO + ":age_at_z", CO + ":age_at_z0"])

p("Floating-point cumulative mass",
  "In floating-point arithmetic with unit roundoff u, the i-th cumulative stellar mass agrees with the exact trapezoid integral up to i+8 relative roundings (below 6.1e-5 in single precision on tables of up to 1000 times), and with monotone rounding the computed cumulative mass never decreases, exactly.",
  "every table length, every non-decreasing time table from 0.01 Gyr, every non-negative SFR, every arithmetic obeying the standard rounding model", "accumulated rounding over arbitrary-length scans on every input", [U + ":_cumtrapz_scan_func", U + ":cumtrapz", U + ":cumulative_mstar_formed"])

p("Floating-point weights and SED",
  "Whatever the order in which the reductions are evaluated, weights normalised in floating point are non-negative and sum to one up to d+1 roundings (d the longest chain of additions), and the composite SED agrees with the exact SED of the same inputs up to a fixed number of relative roundings; it always lies between the faintest and brightest SSP times the mass up to d+e+5 roundings.",
  "every array size, every summation order, every non-negative input", "rounding and reduction order vary between compilers and devices", [SW + ":calc_ssp_weights_sfh_table_lognormal_mdf", SW + ":calc_ssp_weights_sfh_table_met_table", SS + ":calc_rest_sed_sfh_table_lognormal_mdf", SS + ":calc_rest_sed_sfh_table_met_table"])

p("Floating-point photometry",
  "The floating-point AB flux through a filter agrees with the exact flux up to a fixed number of relative roundings of the luminosities and the longest chains of additions, including the interpolation of the spectrum when errors are measured against the brightest luminosity; the magnitude error is bounded accordingly.",
  "every spectrum, filter, size, summation order and unit roundoff", "rounding and reduction order vary between compilers and devices", [PK + ":calc_rest_flux", PK + ":calc_rest_mag", PK + ":_rest_flux_ssp", PK + ":_flux_ab0_at_10pc"])

p("Gradients of the metallicity weights",
  "jax.grad of the SSP metallicity weights returns finite numbers that are the exact partial derivatives, with respect to the galaxy's metallicity, its scatter and the grid, for every metallicity, every scatter > 0 and every grid with increasing bin edges - at the edges of the kernel, on bin edges and where the distribution runs off the grid included.",
  "every metallicity, every scatter > 0, every grid with increasing edges, every differentiable model upstream", "a gradient is wrong or nan only on measure-zero sets and in branches of jnp.where that are not taken", [MW + ":calc_lgmet_weights_from_lognormal_mdf", U + ":_tw_cuml_kern", U + ":_fill_empty_weights_singlepoint"])

p("Gradients of the age weights",
  "On tables of the documented kind jax.grad of the age weights is finite for all star formation rates, zero and negative ones included, and equals the exact partial derivatives unless a rate equals the floor or (if times are differentiated) an age-bin edge is born exactly at a table time.",
  "every table, SFH, age grid, observation time and floor whose bins meet the table", "nan gradients hide in clipped branches and at interpolation nodes", [AW + ":calc_age_weights_from_sfh_table", U + ":cumulative_mstar_formed"])

p("Gradients of the SED",
  "On the same inputs jax.grad of every flux of the SED, for single metallicities and metallicity histories, with respect to all star formation rates, metallicities and scatter is finite, and exact unless a star formation rate equals a floor.",
  "every SFH, metallicity history, scatter > 0, grid and flux cube", "high-dimensional continuum; branches of where", [SS + ":calc_rest_sed_sfh_table_lognormal_mdf", SS + ":calc_rest_sed_sfh_table_met_table"])

p("Gradients of magnitudes",
  "jax.grad of rest-frame and observed magnitudes with respect to luminosities and cosmology is finite and exact wherever the flux is positive (and z > 0); with respect to redshift it is finite, and exact unless a filter wavelength coincides with a redshifted wavelength of the spectrum. In particular for every positive spectrum covering the filter.",
  "every spectrum, filter, redshift and cosmology", "kinks at coincidences of reals", [PK + ":calc_rest_mag", PK + ":calc_obs_mag", PK + ":calc_rest_flux"])

p("Gradients of burst weights",
  "jax.grad of the bursty age weights is finite for every burst whose peak is before its maximum, even if the burst contains no age of the grid, and exact if it contains one; in the unbounded parameters it is finite on all of R^3 and exact on every grid from 1 to 10 Myr with gaps below two dex.",
  "all burst parameters, smooth weights and age grids", "division by zero hides in the branch of the zero-safe normalisation that is not taken", [DB + ":calc_bursty_age_weights", DB + ":calc_bursty_age_weights_from_u_params", DB + ":_zero_safe_normalize"])

p("Gradients of cosmological functions",
  "jax.grad of the distances, lookback time, age, critical density and virial time with respect to redshift, Om0, w0, wa and h is finite and exact for every z > -1 and physical Om0; of the distance modulus for z > 0.",
  "every redshift, Om0 in [0,1], w0, wa, h", "continuum of arguments, z=0 included", [CO + ":comoving_distance_to_z", CO + ":luminosity_distance_to_z", CO + ":angular_diameter_distance_to_z", CO + ":lookback_to_z", CO + ":age_at_z", CO + ":distance_modulus_to_z"])

p("Where gradients are nan although values are not",
  "With metallicity scatter exactly zero the metallicity weights are finite (0 and 1) off the bin edges, but jax.grad of every weight and of every SED flux with respect to metallicity and scatter is nan, whatever the other inputs; at z=0 the derivative of the distance modulus is nan.",
  "every metallicity, grid, SFH and flux cube; every cosmology", "a nan in one branch of jnp.where poisons the gradient of the other", [MW + ":calc_lgmet_weights_from_lognormal_mdf", SS + ":calc_rest_sed_sfh_table_lognormal_mdf", CO + ":distance_modulus_to_z"])

p("Gradients of dust attenuation",
  "jax.grad of the transmitted fraction with respect to curve, av and floor is finite for all inputs and exact unless av*k = 0, where it is the one-sided derivative of the unclipped law; for the Salim+18 and Noll+09 curves it is finite in wavelength, bump and slope parameters for positive wavelength and non-zero bump width and exact off the breaks and zeros; the triweight curve and the effective wavelength have exact gradients.",
  "all curve parameters, wavelengths, av and floors", "kinks of the clipping and of the piecewise base curve", ["dsps/dust/att_curves.py:_frac_transmission_from_k_lambda", "dsps/dust/att_curves.py:sbl18_k_lambda", "dsps/dust/att_curves.py:noll09_k_lambda", "dsps/dust/att_curves.py:triweight_k_lambda", DU + ":get_filter_effective_wavelength"])

p("Gradients of IMF and mass-metallicity functions",
  "jax.grad of remnant and surviving mass fractions is finite and exact everywhere; of the mass-metallicity relations it is finite for all masses, times and parameters (also through the bounding transformation, for all real unbounded parameters) and exact unless the time varies through 12.5 Gyr or the unclipped evolution term vanishes.",
  "all ages, masses, times and parameters", "kinks of the clips", [SM + ":surviving_mstar", RM + ":remnant_mass", UM + ":mzr_model", UM + ":get_bounded_mzr_params", MZ + ":mzr_model"])

p("Gradients of the whole forward model",
  "For documented inputs, positive SSP spectra covering the filter and a dust curve that is nowhere negative, jax.grad of the observed magnitude of a dusty galaxy with respect to all star formation rates, metallicity, scatter and av is finite, whatever the star formation rates and av, and exact unless a star formation rate equals a floor or av <= 0.",
  "every SFH, metallicity, scatter > 0, av, SSP library, filter, redshift and cosmology", "finiteness over the whole parameter space; a single nan in an unused branch spoils a fit", [SS + ":calc_rest_sed_sfh_table_lognormal_mdf", "dsps/dust/att_curves.py:_frac_transmission_from_k_lambda", PK + ":calc_obs_mag"])

p("Importing dsps",
  "No order or number of imports of dsps modules, mixed with changes of jax's 64-bit flag, raises an ImportError; every module body runs once and every computed constant is fixed from then on; the first import of any module leaves the process in 64-bit mode, with TODAY computed in the precision chosen before and all other constants in 64 bit; afterwards imports change the flag only by switching it on, exactly at the first import of a dsps.dust module.",
  "every history of imports and flag changes", "schedules of imports across a process; tests import dsps in one order", ["dsps/__init__.py", "dsps/sed/__init__.py", "dsps/cosmology/defaults.py:TODAY", "dsps/dust/blackbody.py", UM + ":DEFAULT_MZR_U_PARAMS", DB + ":DEFAULT_BURST_U_PARAMS"])

p("Jit and mutable module globals",
  "A program that does not assign to the parameter-bound dictionaries gets from every call of the mass-metallicity bounding transformations exactly what their source text says, whatever was called before. After the first call with a given signature later assignments to the dictionary have no effect on calls with it, and the unbounding transformation with the signature of the defaults is fixed by the import, so that assigning a bound after the import breaks the round trip; assigning before any call with fresh signatures keeps it for all bounds.",
  "every history of calls and dictionary assignments, every notion of call signature", "schedules of calls; staleness depends on which call came first", [UM + ":get_bounded_mzr_params", UM + ":get_unbounded_mzr_params", UM + ":_get_mzr_t0_slope_hi_from_unbounded", UM + ":MZR_PBDICT", UM + ":get_ran_t0_params"])

p("Floating-point accuracy of age weights",
  "Evaluated in machine arithmetic from the star formation history on, with library functions of accuracy v and the additions in any order, the mass at the time of observation and every age weight differ from the exact values by at most an explicit function of the unit roundoff, v, the sizes of the tables, the steepness of the mass growth and the fraction of the mass in the age grid; in double precision with up to 1000 times and ages the mass is accurate to 1.4e-11 (relative) and the weights to 3.1e-8 whenever the growth rate is below 1000 M/t_obs and a tenth of the mass lies in the grid.",
  "every SFH table, age grid, observation time, machine arithmetic and order of additions", "worst case over all inputs and reduction orders; the weights are differences of interpolated masses, so sampled inputs can miss the cancellation", [AW + ":calc_age_weights_from_sfh_table", AW + ":_get_lg_age_bin_edges", AW + ":_get_lgt_birth", SS + ":calc_rest_sed_sfh_table_lognormal_mdf"])

p("Floating-point accuracy of metallicity weights",
  "Evaluated in machine arithmetic from the inputs on, with the additions in any order, the lognormal and tabulated metallicity weights differ from the exact ones, summed over metallicity, by at most an explicit function of the unit roundoff, the number of metallicities, the scatter and the slope of the metallicity history; in double precision by at most 8e-10 for up to 100 metallicities and scatter >= 0.01 dex, and by 3e-7/n_age per age for a tabulated history of slope <= 2, up to 50 metallicities and scatter >= 0.05 dex.",
  "every metallicity, scatter, metallicity grid with ordered bin edges, metallicity history, machine arithmetic and order of additions", "worst case over all inputs and reduction orders; a small scatter amplifies rounding errors of bin edges", [MW + ":calc_lgmet_weights_from_lognormal_mdf", MW + ":calc_lgmet_weights_from_lgmet_table", MW + ":_get_lgmet_weights_singlegal", U + ":triweighted_histogram"])

p("Floating-point accuracy of a rest-frame SED",
  "Evaluated in machine arithmetic from the inputs on, with the additions in any order, both SED functions return at every wavelength a luminosity within 1.3e-5 of (brightest SSP at that wavelength) x (mass formed) of the exact value, in double precision, for up to 1000 times, 200 ages and 100 (tabulated history: 50) metallicities; in any precision the error is bounded by an explicit function of the errors of the two marginal weights and of the mass.",
  "every SFH, metallicity, SSP library, machine arithmetic and order of additions", "worst case over all inputs and reduction orders", [SS + ":calc_rest_sed_sfh_table_lognormal_mdf", SS + ":calc_rest_sed_sfh_table_met_table"])

p("Floating-point accuracy of a rest-frame magnitude, end to end",
  "A magnitude computed in double precision by an SED function followed by the rest-frame magnitude function differs from the exact magnitude of the exact SED by at most 2e-15 |mag| + 1.7e-5 R + 4e-6, where R <= 1000 is the largest flux ratio of two SSPs at one wavelength and the fluxes span at most six decades.",
  "every SFH, metallicity, SSP library, filter, machine arithmetic and order of additions", "worst case over all inputs and reduction orders", [SS + ":calc_rest_sed_sfh_table_lognormal_mdf", SS + ":calc_rest_sed_sfh_table_met_table", PK + ":calc_rest_mag"])

p("Continuum fit and the singular value cutoff",
  "The continuum fit, which solves its least-squares problem by singular value decomposition with JAX's cutoff (eps times the number of samples), returns what exact minimum-norm least squares returns - so that quadratic continua are recovered exactly - for every spectrum of up to 100000 float64 samples with three samples in the continuum windows separated by a thousandth of the wavelength. In any precision the fit of a quadratic continuum is off inside the windows by at most sqrt(3)*eps*n times the size of its terms; in single precision, with 1000 samples or more and windows within 1% of a wavelength x0, the continuum (wave-x0)^2 is not recovered.",
  "every spectrum, flux, window and singular value decomposition", "the cutoff depends on the conditioning of the window geometry, a continuum of cases; tests use one spectrum in double precision", ["dsps/em_lines/equivalent_width.py:_weighted_quadratic_fit", "dsps/em_lines/equivalent_width.py:_ew_kernel", "dsps/em_lines/equivalent_width.py:_continuum_line_decomp_kern"])

p("Floating-point accuracy of the cosmology functions",
  "Distances, lookback time, age today, critical density, virial time and comoving volume computed in machine arithmetic agree with the exact values of the same quadrature up to a relative error of 1.02 K eps, where K counts roundings and grows with log(1+z), |w0|+|wa| and the depth of the quadrature sums. For ordinary cosmologies and z <= 10 this is below 7e-4 in single precision (age today 1.1e-3, comoving volume 1.4e-3, distance modulus 1.4e-3 mag) and below 1.3e-12 in double precision. The age at redshift z, a difference, is accurate only relative to the age today and the lookback time.",
  "every redshift, matter density, dark-energy equation of state, Hubble parameter, machine arithmetic and order of additions", "the error depends on the reduction order and on all parameters; tests compare with astropy at a few redshifts at 1e-3", [CO + ":comoving_distance_to_z", CO + ":luminosity_distance_to_z", CO + ":angular_diameter_distance_to_z", CO + ":distance_modulus_to_z", CO + ":lookback_to_z", CO + ":age_at_z0", CO + ":age_at_z", CO + ":rho_crit", CO + ":virial_dynamical_time", CO + ":differential_comoving_volume_at_z"])

p("Floating-point accuracy of observed magnitudes",
  "A magnitude computed in machine arithmetic from a spectrum, a filter, a redshift and a cosmology differs from the exact magnitude by at most eps times a count of roundings that grows with the contrast of neighbouring luminosities, the logarithmic slope of the spectrum, the depth of the sums over the filter and log(1+z), plus a few eps times the size of its terms. For ordinary cosmologies, z <= 10, filters of up to 1000 points, contrast 10 and slope 1000 this is 5.6e-3 mag plus 4e-6 of the terms in single precision and 5.3e-12 mag plus 4e-15 of the terms in double precision; computed end to end from the galaxy model in double precision the observed magnitude is accurate to 5.3e-12 + 1.5e-5 R mag, R <= 700 being the largest flux ratio of two SSPs at one wavelength.",
  "every spectrum, filter, redshift, cosmology, galaxy model, machine arithmetic and order of additions", "worst case over all inputs and reduction orders; the redshifted wavelength grid is itself rounded", [PK + ":calc_obs_mag", PK + ":_calc_obs_mag_no_dimming", PK + ":_cosmological_dimming", PK + ":_cosmological_dimming_from_table", PK + ":calc_rest_mag", PK + ":calc_rest_flux", SS + ":calc_rest_sed_sfh_table_lognormal_mdf", SS + ":calc_rest_sed_sfh_table_met_table"])

p("Shapes of arrays through the SED pipeline",
  "Called with arrays of the documented shapes, the age-weight, metallicity-weight, joint-weight and SED functions never raise and return arrays of these shapes: age weights (n_ages,), lognormal metallicity weights (n_met,), tabulated metallicity weights (n_met, n_ages), joint weights (n_met, n_ages), SED (n_wave,), with the axes in that order even when two dimensions are equal; the entries are those of the statically shaped model all other properties are about.",
  "every number of times, ages, metallicities and wavelengths, and all entries", "all sizes; a transposition is invisible in a test whose dimensions are equal", [U + ":_get_bin_edges", U + ":triweighted_histogram", U + ":cumtrapz", AW + ":calc_age_weights_from_sfh_table", MW + ":calc_lgmet_weights_from_lognormal_mdf", MW + ":calc_lgmet_weights_from_lgmet_table", SW + ":calc_ssp_weights_sfh_table_lognormal_mdf", SW + ":calc_ssp_weights_sfh_table_met_table", SS + ":calc_rest_sed_sfh_table_lognormal_mdf", SS + ":calc_rest_sed_sfh_table_met_table"])

p("What the SED pipeline does with arrays of other shapes",
  "Exactly characterised: a flux table is accepted iff, counted from the end, its second dimension (if any) is n_ages or 1 and its third (if any) n_met or 1; missing axes are broadcast, a transposed table raises unless n_met = n_ages (then it is used in silence), a stack of tables is summed over the wrong axes in silence. Tables of times, SSP ages and SSP metallicities raise unless one-dimensional; a metallicity table raises unless it has the shape of the table of times; a star formation history raises unless it has one value per time or is a single number; the SED functions raise for more than one observation time or metallicity; a column of q observation times is accepted by the age weights but normalised over the whole batch.",
  "every shape and rank of each argument, the others being as documented (or arbitrary)", "all shapes and ranks; several are accepted in silence", [AW + ":calc_age_weights_from_sfh_table", MW + ":calc_lgmet_weights_from_lognormal_mdf", MW + ":calc_lgmet_weights_from_lgmet_table", SW + ":calc_ssp_weights_sfh_table_lognormal_mdf", SS + ":calc_rest_sed_sfh_table_lognormal_mdf", SS + ":calc_rest_sed_sfh_table_met_table"])

p("Scalar and array redshifts in the cosmology functions",
  "Distances, lookback time and comoving volume map a scalar redshift to a scalar, their vectorised versions a one-dimensional array to an array of the same length element by element and raise on a scalar; age_at_z takes both; critical density acts element by element on any shape; the virial time needs an array. Given an array of k redshifts the scalar functions do not return k distances: comoving_distance_to_z returns 256 numbers (lookback_to_z 512) obtained by integrating from one redshift of the array to the next - zeros for k = 1, and zero in the first place for k = 256 - while luminosity and angular diameter distance, distance modulus and volume raise unless k is 1 or 256.",
  "every redshift array of every shape and every cosmology", "all shapes; the wrong result has no error message", [CO + ":comoving_distance_to_z", CO + ":comoving_distance", CO + ":luminosity_distance_to_z", CO + ":angular_diameter_distance_to_z", CO + ":distance_modulus_to_z", CO + ":lookback_to_z", CO + ":age_at_z", CO + ":rho_crit", CO + ":virial_dynamical_time", CO + ":differential_comoving_volume_at_z"])

p("Shapes of arrays in photometry",
  "One spectrum through one filter is a scalar; a stack of filters of shape (n_filters, n_trans), with its own or a common wavelength grid, gives one magnitude per filter; a single transmission number is a constant filter. A spectrum that is not one-dimensional or whose two arrays differ in length raises, and so does a filter whose two arrays differ in length. An array of redshifts raises unless it has one entry (or 256 entries and 256 wavelengths), and then 256 numbers are returned. The magnitude tables have axes redshift, metallicity, age, filter in that order; they raise unless the flux table has three axes and the filters agree in number.",
  "every spectrum, filter, redshift and flux table, of every shape", "all shapes and sizes; axis order is invisible when two dimensions are equal", [PK + ":calc_rest_flux", PK + ":calc_rest_mag", PK + ":calc_obs_mag", PK + ":_obs_flux_ssp", PK + ":_rest_flux_ssp", PP + ":precompute_ssp_obsmags_on_z_table", PP + ":precompute_ssp_restmags", PP + ":precompute_ssp_restmags_z_kcorrect"])

PM = "dsps/metallicity/diagnostics/plot_mzr.py:make_mzr_comparison_plot"
p("Legend of the mass-metallicity plot",
  "In the comparison figure the curves drawn in the style of the legend entry with the first label are those of the first model, and the curves in the style of the entry with the second label those of the second model; the redshift labels have the colours of the curves at the corresponding times.",
  "every pair of models, labels, file name and environment", "the test only checks that a file is written; what the figure says for every pair of models is not looked at", [PM])
p("Content and effects of the mass-metallicity plot",
  "The figure is returned iff matplotlib is available, the three observational tables can be read (at least two rows and columns) and the output can be written; it shows both models at 2, 5, 8, 11 and 14 Gyr on 1000 masses from 10^2 to 10^14 and every second row of the tables with the metallicity shifted by log10(0.012). A file is written exactly by calls that return and were given a name; calls that raise write nothing. Every call, also a raising one, leaves one more open figure behind.",
  "every sequence of calls with any models, names and environment", "histories of calls, including failing ones", [PM])

BB = "dsps/dust/blackbody.py"
p("Gradients of the blackbody spectrum",
  "Differentiating the blackbody spectra with jax.grad gives finite and correct gradients for every positive wavelength (frequency) and temperature, in double and in single precision, so that a fit of dust temperatures cannot be poisoned by nan.",
  "every wavelength, frequency and temperature, every function of the spectrum and every set of parameters behind temperature and wavelength", "the overflow is in the backward pass only: the value is a correct zero and the tests look at values", [BB + ":blackbody_freq_density", BB + ":blackbody_wave_density", BB + ":_freq_density_denom", BB + ":_wave_density_denom", BB + ":_jax_bb_freq_density_exparg", BB + ":_blackbody_freq_density_si", BB + ":_blackbody_wave_density_si"])

WS = "scripts/write_fsps_data_to_disk.py"
p("Crash points of the script that writes SSP data",
  "If the script that retrieves FSPS data and writes them to disk is interrupted at any point (exception, Ctrl-C, full disk, kill), loading the file afterwards either raises or gives the previous contents or the complete new data; never a mixture of two data sets, and never the new data with parts missing. A failed retrieval leaves the old file alone; running the script again repairs the file; after any sequence of interrupted runs a file that loads holds the data of one run only. The options --gas_logz and --gas_logu reach FSPS exactly when given, including the value 0.",
  "every interruption point of every run, every history of runs, every previous file, every retrieved data set", "crash points and histories", [WS + ":__main__", "dsps/data_loaders/load_ssp_data.py:load_ssp_templates", "dsps/data_loaders/retrieve_fsps_data.py:retrieve_ssp_data_from_fsps"])

p("Grids given as integers",
  "Passing a grid of whole numbers as an integer array gives the same cell widths, bin edges, age weights and metallicity weights as passing it as floats, and the same for tables of times and star formation rates.",
  "every integer grid and table of every length", "the tests use float grids; for evenly spaced integer grids there is no difference", [U + ":_jax_get_dt_array", U + ":_get_bin_edges", AW + ":_get_lg_age_bin_edges", AW + ":calc_age_weights_from_sfh_table", MW + ":calc_lgmet_weights_from_lognormal_mdf", U + ":cumulative_mstar_formed"])

p("Floating-point accuracy of the blackbody spectrum",
  "Computed in machine arithmetic (the constants and their logarithms rounded in binary64, everything else in the arithmetic of the arrays, exp and log accurate to v), the blackbody spectra per unit frequency and wavelength agree with Planck's law up to a relative error of eps times a count of roundings that grows with h nu/kT, with kT/h nu (cancellation in exp(x)-1) and with the logarithm of the frequency. In double precision it is below 1.3e-11 for 1e8 Hz <= nu <= 1e18 Hz and 1e-4 <= h nu/kT <= 100. For h nu/kT <= 2^-54 the rounded denominator is exactly zero although the exact one is positive.",
  "every frequency, wavelength and temperature and every machine arithmetic", "worst case over all inputs and rounding errors", [BB + ":blackbody_freq_density", BB + ":blackbody_wave_density", BB + ":_freq_density_denom", BB + ":_wave_density_denom", BB + ":_jax_bb_freq_density_exparg", BB + ":_blackbody_freq_density_si", BB + ":_blackbody_wave_density_si"])

p("Floating-point accuracy of dust attenuation",
  "Computed in machine arithmetic, the Calzetti/Leitherer base curve, the Noll and Salim curves and the transmitted fraction agree with exact arithmetic up to eps times an explicit count of roundings, for every wavelength that is not within two roundings of the break points 0.15 and 0.63 micron; for ordinary dust (0.1 to 3 micron, bump up to 10, slope up to 3, A_V up to 5) in double precision the transmitted fraction is within 2.5e-9. Rounding never moves the transmitted fraction below the unobscured fraction or above one.",
  "every wavelength, bump, slope, amount of dust, unobscured fraction and machine arithmetic", "worst case over all inputs and rounding errors", [AC + ":_frac_transmission_from_k_lambda", AC + ":_att_curve_from_k_lambda", AC + ":noll09_k_lambda", AC + ":sbl18_k_lambda", AC + ":calzetti00_k_lambda", AC + ":leitherer02_k_lambda", AC + ":_l02_below_c00_above", AC + ":power_law_vband_norm", AC + ":_drude_bump"])

p("Element-wise formulas on arrays of any shapes",
  "The element-wise functions (sigmoids, triweight kernels, power law, surviving and remnant mass, mass-metallicity relations, dust curves and transmission, blackbody spectra, expansion rate and critical density, parameter bounds of bursts) accept scalars and arrays of any rank for data and parameters alike. If the shapes broadcast by numpy's rule, the result has the broadcast shape and each element is the scalar formula of the elements it broadcasts from; if they do not, the call raises.",
  "every shape and rank of every argument of every such function", "all shapes and ranks and all mixtures of them", [U + ":_sigmoid", U + ":_tw_cuml_kern", U + ":triweight_gaussian", U + ":powerlaw_pdf", "dsps/imf/surviving_mstar.py:surviving_mstar", "dsps/metallicity/mzr.py:mzr_model", "dsps/metallicity/umzr.py:mzr_model", AC + ":noll09_k_lambda", AC + ":_frac_transmission_from_k_lambda", BB + ":blackbody_freq_density", BB + ":blackbody_wave_density", CO + ":_Ez", CO + ":rho_crit"])

p("Burst age weights for several populations at once",
  "Giving the burst functions arrays of burst parameters computes, for every burst, the age weights that burst has alone (which sum to one), or raises if the shapes do not fit.",
  "every shape and rank of every argument", "all shapes and ranks; the tests use three numbers and one table", [DB + ":calc_bursty_age_weights", DB + ":calc_bursty_age_weights_from_u_params", DB + ":_pureburst_age_weights_from_params", DB + ":_zero_safe_normalize"])

p("Metallicity parameters of many populations at once",
  "The transformations between bounded and unbounded parameters of the mass-metallicity relation accept nine arrays of one shape (scalars included): the result has that shape and every element is the scalar transformation of that population. If the nine shapes differ the call raises; nothing is broadcast.",
  "every shape, every parameter value", "all shapes and mixtures of shapes", ["dsps/metallicity/umzr.py:get_bounded_mzr_params", "dsps/metallicity/umzr.py:get_unbounded_mzr_params"])

EW = "dsps/em_lines/equivalent_width.py"
p("What an equivalent width depends on",
  "Equivalent width, line flux and continuum depend only on the flux at the samples inside the continuum windows and the line window. The continuum is the quadratic with the least squared residuals over the window samples (the only one, with three distinct wavelengths). Stretching wavelengths and windows by s (units, or redshift with s = 1+z) multiplies equivalent width and line flux by s and leaves the continuum alone; moving the origin of the wavelengths changes nothing. A flat-topped line of height e has line flux e times the window width up to e times the cell width, because the window edges are not interpolated.",
  "every spectrum, window set, stretch, offset and sampling", "all spectra and grids; invariances relate pairs of runs", [EW + ":_ew_kernel", EW + ":_continuum_line_decomp_kern", EW + ":_weighted_quadratic_fit", EW + ":_get_quadfit_weights", EW + ":_get_integration_weights"])
p("Equivalent width: finite, infinite or nan",
  "For real spectra with at least one sample (of nonzero wavelength) in the continuum windows, line flux, continuum and coefficients are finite and equal to the exact ones, and the equivalent width is finite unless the continuum vanishes at the line (then infinite, or nan without line). Without a sample in the windows everything is nan. One nan pixel anywhere in the spectrum, even outside all windows, or an infinite one outside the continuum windows, makes everything nan.",
  "every spectrum with any pattern of special values, every window set", "all patterns of nan and all windows", [EW + ":_ew_kernel", EW + ":_continuum_line_decomp_kern", EW + ":_weighted_quadratic_fit"])

p("Floating-point accuracy of the sigmoid relations",
  "Computed in machine arithmetic, the sigmoid and sigmoid-slope functions, the two mass-metallicity relations with their evolution, the Maiolino parabola, the nine bounded parameters and the surviving and remnant mass agree with exact arithmetic up to eps times an explicit count of roundings times an explicit size. In double precision: metallicity within 4e-11 dex for masses 10^7 to 10^12.5 at any time with parameters in their bounds; bounded parameters within 5e-13 for every input; surviving mass fraction within 2e-12 and remnant mass within 2e-11 (relative) for ages 10^5 to 10^10.5 yr and every calibration.",
  "every argument, parameter set and machine arithmetic", "worst case over all inputs and rounding errors", [U + ":_sigmoid", U + ":_sig_slope", "dsps/metallicity/mzr.py:mzr_model", "dsps/metallicity/mzr.py:maiolino08_metallicity_evolution", "dsps/metallicity/umzr.py:mzr_model", "dsps/metallicity/umzr.py:get_bounded_mzr_params", "dsps/imf/surviving_mstar.py:surviving_mstar", "dsps/imf/remnant_mass.py:remnant_mass"])
p("Bounded parameters in floating point: bounds, round trip, saturation",
  "In round-to-nearest arithmetic (single and double precision) bounded mass-metallicity parameters stay within their bounds for every finite unbounded value, and the high-mass slope between 0 and the low-mass slope. Going from unbounded to bounded and back returns the value up to roundings amplified by the reciprocal slope of the sigmoid: in double precision within 1e-6 for all nine parameters when the unbounded values are at most 100 in size. In double precision all unbounded values with 0.1 (u - mid) >= 38 give the same bounded value, so that no inverse can recover them. For other bounds than the package's the upper bound can be exceeded by a rounding.",
  "every unbounded value, bound pair and rounding", "worst case over all inputs and rounding errors", [U + ":_sigmoid", U + ":_inverse_sigmoid", "dsps/metallicity/umzr.py:get_bounded_mzr_params", "dsps/metallicity/umzr.py:get_unbounded_mzr_params"])

p("Floating-point accuracy of burst age weights",
  "Computed in machine arithmetic with any order of the sum, the age weights of a burst agree with exact arithmetic, in the sum norm, up to eps times the condition number of the burst (size of lgyr_peak and lgyr_max over their difference) times the number of ages over the kernel's sum over the ages; the bursty mixture inherits this in proportion to the burst's mass fraction. In double precision, for bursts within the package's bounds sampled by an age within half the support of the peak: within 1.8e-11 (1.9e-11 for the mixture) per age, up to a million ages, and the mixture sums to one as precisely as the smooth weights.",
  "every array of ages, burst and machine arithmetic", "worst case over all inputs and rounding errors", [DB + ":calc_bursty_age_weights", DB + ":_pureburst_age_weights_from_params", DB + ":_zero_safe_normalize", U + ":triweight_gaussian"])
p("Bursts in round-to-nearest arithmetic",
  "In round-to-nearest arithmetic (20 bits or more), whatever the unbounded parameters, the burst's peak lies between 10^5 and 10^8 yr, its mass fraction between 10^-8 and 10^-1 and its end after the peak and at most at 10^9 yr; the burst's age weights lie between 0 and 1 for every array of ages and order of the sum, and sum to one up to the rounding of the normalisation or are all exactly zero; bursty weights of non-negative smooth weights are non-negative. In double precision the conversion to unbounded parameters and back returns the mass fraction and peak within 1e-6 and the end within 1e-3 for values up to 100; every u_lgyr_peak >= 400 gives the same peak 10^8 yr and the same end 10^9 yr whatever u_lgyr_max is.",
  "every unbounded parameter, array of ages and order of additions", "worst case over all inputs and rounding errors", [DB + ":calc_bursty_age_weights_from_u_params", DB + ":_get_params_from_u_params", DB + ":_get_u_params_from_params", DB + ":_pureburst_age_weights_from_params", DB + ":_zero_safe_normalize"])

p("Physical units of magnitudes, times and densities",
  "With spectra in solar luminosities per Hz and wavelengths in Angstrom, observed-frame magnitudes are the AB magnitudes (zero point 3631 Jy) of the band-averaged flux density received at the luminosity distance, including the (1+z) bandwidth factor, and rest-frame magnitudes those at ten parsec, within 7.3e-8 mag, with parsec, solar luminosity and jansky taken from their IAU definitions. The Hubble time is in Gyr of tropical years (to 5e-12/h) and the critical density in solar masses per cubic kpc (to 3e-7 h^2 of 277.5).",
  "every spectrum, filter, redshift and cosmology with positive fluxes", "a statement about all inputs relating the code's numerical constants to unit definitions", [PK + ":calc_obs_mag", PK + ":calc_rest_mag", CO + ":_hubble_time", CO + ":rho_crit", "dsps/constants.py"])

p("Refining the time table converges to the star formation history",
  "For every continuous star formation history the mass formed, the age weights and the SED (one metallicity, or a continuous metallicity history) computed from the history's values at table times tend to the exact integrals of the history as the widest gap of the table (counted from the first star formation at 0.001 Gyr) tends to zero; with explicit errors for mass and age weights in terms of the gap, the history's maximum and its variation over a gap.",
  "every continuous history, age grid, observation time and sequence of tables", "a limit over all tables", [U + ":cumulative_mstar_formed", AW + ":calc_age_weights_from_sfh_table", SS + ":calc_rest_sed_sfh_table_lognormal_mdf", SS + ":calc_rest_sed_sfh_table_met_table"])
p("Refining the wavelength grids converges to the magnitudes of the spectrum",
  "For every continuous spectrum and transmission curve, fluxes and rest-frame and observed magnitudes computed from their values on wavelength grids tend to those of the integral of T(lambda) L(lambda/(1+z)) over d lambda / lambda as both grids are refined independently; and the magnitude of a galaxy computed from time table, SSP spectra and filter tends to the magnitude of its exact spectrum as time table, wavelength grid and filter grid are refined.",
  "every continuous spectrum, filter, history and sequence of grids", "a limit over all grids", [PK + ":calc_obs_mag", PK + ":calc_rest_mag", PK + ":_obs_flux_ssp", SS + ":calc_rest_sed_sfh_table_lognormal_mdf"])

p("Adding and scaling star formation histories",
  "The mass formed by any table time is affine in the star formation rates, and at every time the masses of two components add up to the mass of the summed history up to the mass formed within one gap of the table; raising rates never lowers the mass formed by any time. Multiplying a history by c >= 1 multiplies the mass formed and the spectrum by c and leaves the age weights alone, up to the rate 1e-14 assumed at 0.001 Gyr relative to the first rate of the table. The spectra of two components add up to the spectrum of the sum up to the light of the mass outside the age bins and of the mass formed in one gap per age bin. But raising the rate at one table time can dim the spectrum at some wavelength.",
  "every pair of histories, table, grid, wavelength and factor", "relations between runs over all inputs", [U + ":cumulative_mstar_formed", AW + ":calc_age_weights_from_sfh_table", SS + ":calc_rest_sed_sfh_table_lognormal_mdf"])

p("Dust in magnitudes and colours",
  "Behind a dust screen every magnitude dims by an amount between the least and the largest extinction within the (redshifted) band; exactly by the extinction if that is constant over the band. Dust never brightens, more dust dims more, and with an unobscured fraction f the dimming is at most -2.5 log10 f. Reddening curves that fall with wavelength make the colour of two non-overlapping filters redder, at every redshift: exactly for the triweight curve, up to 0.0065 av magnitudes for the Calzetti curve (with Leitherer's extension or without). Two screens add up; and attenuating the SSP spectra or the galaxy's spectrum gives the same.",
  "every spectrum, filter, redshift, reddening curve and amount of dust", "all spectra and filters; a relation between runs", ["dsps/dust/att_curves.py:_frac_transmission_from_k_lambda", "dsps/dust/att_curves.py:triweight_k_lambda", "dsps/dust/att_curves.py:calzetti00_k_lambda", "dsps/dust/att_curves.py:noll09_k_lambda", PK + ":calc_obs_mag", PK + ":calc_rest_mag", SS + ":calc_rest_sed_sfh_table_lognormal_mdf", SS + ":calc_rest_sed_sfh_table_met_table"])

p("How weights and spectra respond to the metallicity",
  "The metallicity distribution has the galaxy's metallicity as its mean and the scatter as its standard deviation, and the weighted mean over the SSP grid is the galaxy's metallicity up to the largest grid spacing when the distribution lies within the grid. Raising the galaxy's metallicity never raises the total weight on the lowest SSP metallicities, however many are counted and also at or beyond the ends of the grid; a larger scatter moves weight away from the mean on both sides. So at a wavelength where the SSP flux falls (rises) with metallicity at every age, the galaxy's flux falls (rises) with its metallicity, or with a metallicity history that is higher at every time, for every star formation history.",
  "every metallicity, scatter, mildly spaced grid, history and spectrum", "a relation between runs over all inputs", [MW + ":calc_lgmet_weights_from_lognormal_mdf", MW + ":calc_lgmet_weights_from_lgmet_table", U + ":triweight_gaussian", U + ":_get_triweights_singlepoint", SS + ":calc_rest_sed_sfh_table_lognormal_mdf", SS + ":calc_rest_sed_sfh_table_met_table"])

p("Passive evolution and quenched galaxies",
  "Once star formation has ended and while all ages are covered by the SSP grid, the mass formed is constant, the share of the stars in the youngest age bins (however many are counted) only decreases with the time of observation, and at a wavelength where SSPs fade with age at every metallicity the galaxy fades. If from some table time on the star formation rate is at most r, the share of all age bins born after it is at most 1e9 r times the remaining length of the table over the binned mass, and the flux is at most that of the older bins plus this share of the younger ones.",
  "every history, table, mildly spaced grids, observation times and spectrum", "a relation between runs over all inputs", [AW + ":calc_age_weights_from_sfh_table", U + ":cumulative_mstar_formed", SS + ":calc_rest_sed_sfh_table_lognormal_mdf"])

p("How burst parameters shape ages and light",
  "For bursts of the same duration an older peak never raises the share of the youngest ages, however many are counted; for bursts with the same peak the share of the ages within any distance of the peak shrinks as the burst gets longer. The light of the bursty age weights, for any light per unit mass, interpolates linearly in the burst's mass fraction between that of the smooth weights and that of the burst; so if populations fade with age and no star of the smooth history is younger than the end of the burst, the burst brightens the galaxy, the more the larger its mass fraction.",
  "every age grid, burst, smooth age weights and array of fluxes", "a relation between runs over all inputs", [DB + ":_pureburst_age_weights_from_params", DB + ":calc_bursty_age_weights", U + ":triweight_gaussian"])

p("Results do not depend on how the curves are tabulated",
  "Two tables of a spectrum that trace out the same curve give the same magnitudes and fluxes, at rest and at any redshift, if both reach over the band of the filter: resampling, refining, cutting and extending a spectrum change nothing. Wavelengths of spectrum and filter may be in any unit: magnitudes and fluxes are the same and the effective wavelength comes out in that unit. Samples of zero transmission before or after a filter whose own ends are zero change nothing (they do change a filter that does not end in zero). Two tables that trace out the same star formation history give the same formed mass at the times they share, namely the integral of the history. A source whose luminosity does not fall with wavelength is observed fainter at a higher redshift.",
  "every spectrum, filter, pair of tables, unit, redshift and cosmology", "a relation between runs over all inputs", [PK + ":calc_obs_mag", PK + ":calc_rest_mag", DU + ":get_filter_effective_wavelength", U + ":cumulative_mstar_formed", U + ":trapz"])

p("Array shapes in the equivalent width",
  "The equivalent width and the continuum decomposition of one spectrum (one-dimensional wavelengths and flux of equal length, scalar windows) are scalars; an array of line centres gives one equivalent width each; a flux that is a number is a flat spectrum. For at least two wavelengths the only other accepted shapes of flux are a column and a square array of as many spectra as wavelengths: these return one number per row without error, but no continuum is subtracted, and the reported continuum is zero. Every other batch of spectra raises, also a single spectrum of shape (1, n); so do wavelengths that are not one-dimensional, and arrays of window limits whose length is neither 1 nor the number of wavelengths.",
  "every array shape and content", "unboundedly many shapes", [EW + ":_ew_kernel", EW + ":_continuum_line_decomp_kern", EW + ":_weighted_quadratic_fit", EW + ":_get_quadfit_weights", EW + ":_get_integration_weights"])

p("Photometry of a galaxy from precomputed SSP magnitudes; dust at the effective wavelength",
  "The magnitudes of a galaxy's spectrum, in the rest frame, k-corrected or observed, for either SED function, equal the magnitude of the sum of the fluxes 10^(-0.4 m) of the precomputed SSP magnitude table weighted by the joint weights and multiplied by the mass formed. The magnitude per unit mass of any population lies between those of its brightest and its faintest part, and its colour between the bluest and the reddest part. The effective wavelength of a filter, divided by 1+z, lies in the rest-frame band; adding the extinction at the effective wavelength to the dust-free magnitude (also the one from the table) approximates the magnitude of the attenuated spectrum with an error of at most the variation of the extinction within the band.",
  "every history, SSP library, filter, redshift, cosmology, falling reddening curve and amount of dust", "a relation between two computations for all inputs", [PP + ":precompute_ssp_obsmags_on_z_table", PP + ":precompute_ssp_restmags", PP + ":precompute_ssp_restmags_z_kcorrect", PK + ":calc_obs_mag", PK + ":calc_rest_mag", DU + ":get_filter_effective_wavelength", SS + ":calc_rest_sed_sfh_table_lognormal_mdf", SS + ":calc_rest_sed_sfh_table_met_table"])

p("Gradients of the unbounding transforms, the comoving volume and the power law",
  "jax.grad returns finite and exact derivatives: of the differential comoving volume with respect to redshift (zero included), matter density, w0, wa and h; of the power-law density and of power-law draws with respect to point or deviate, bounds and index, wherever documented (0 < a < b, g != 0); of burst parameters with respect to the unbounded ones everywhere, and of the unbounded burst parameters everywhere inside the bounds; of the unbounded mass-metallicity parameters for every admissible parameter vector with mzr_t0_slope_hi different from 0.3. But at mzr_t0_slope_hi = 0.3, where the unbounded parameters are finite and differentiable, the gradient with respect to mzr_t0_slope_hi is nan.",
  "every point of the stated domains; every differentiable model feeding into the functions", "all points; nan at one value of a continuous parameter", ["dsps/cosmology/flat_wcdm.py:differential_comoving_volume_at_z", U + ":powerlaw_pdf", U + ":powerlaw_rvs", DB + ":_get_u_params_from_params", DB + ":_get_params_from_u_params", UM + ":get_unbounded_mzr_params"])

p("Gradients of equivalent width, line flux and continuum",
  "With at least one sample of nonzero wavelength in the continuum windows, jax.grad of line flux, continuum and fit coefficients, and of the equivalent width where the continuum at the line is not zero, with respect to the flux in every pixel and the line centre (and whatever they depend on) is finite and exact; fixed window edges may coincide with wavelengths. The gradient of the equivalent width is orthogonal to the spectrum; those of line flux and continuum sum with the flux to line flux and continuum. A pixel outside the continuum windows has, inside the line window, its quadrature weight divided by the continuum as gradient, and zero elsewhere. The gradient with respect to the edges of the windows is zero, although the equivalent width jumps when an edge crosses a wavelength. Where the continuum at the line is zero the gradient is nan in every pixel outside the line window.",
  "every spectrum, choice of windows, cutoff and singular value decomposition, and differentiable model feeding into the flux", "all inputs and all singular value decompositions the library may return", [EW + ":_ew_kernel", EW + ":_continuum_line_decomp_kern", EW + ":_weighted_quadratic_fit"])

p("Floating-point accuracy of the effective wavelength and of the power law",
  "In machine arithmetic with any order of additions: the effective wavelength of any filter has a relative error of a few roundings per addition chain, so it stays in the band up to that error; a draw from a power law with positive index has a relative error of at most about (12.6/g + |ln draw| + 2) roundings whatever the bounds and the deviate (2e-13 in double precision for bounds between 1e-8 and 1e8 and g >= 0.1); the density has a relative error governed by the condition number (b^g + a^g)/|b^g - a^g| of its normalisation. With a negative index errors of draws are amplified by up to (b/a)^(-g), and really are: in single precision with index -1 and bounds 1 and 2^26 the largest deviate gives a draw more than 10% too large.",
  "every filter, redshift, deviate in [0,1], bounds 0 < a < b, index, arithmetic satisfying the standard model and order of additions", "all inputs and all summation orders", [DU + ":get_filter_effective_wavelength", U + ":powerlaw_pdf", U + ":powerlaw_rvs"])

p("A relative error in the star formation history or the library carries through to magnitudes",
  "If the star formation rates are known to within factors lo <= 1 <= hi at every time of the table, the mass formed by any time is known to within the same factors, the mass formed in any interval of time to within hi^2/lo, every age weight (also with a burst) to within (hi/lo)^3, and the spectrum, at every wavelength and for both SED functions, to within hi (hi/lo)^3 times the factor to which the SSP library is known. A spectrum known to within a factor c gives observed and rest-frame magnitudes to within 2.5 log10 c. Altogether a relative error of at most d <= 10% in the star formation history moves every magnitude by at most 8.1 d, whatever the library, filter, redshift and cosmology.",
  "every pair of histories, table, mildly spaced grids, library, filter, redshift and cosmology", "a relation between runs over all inputs", [U + ":cumulative_mstar_formed", AW + ":calc_age_weights_from_sfh_table", DB + ":calc_bursty_age_weights", SS + ":calc_rest_sed_sfh_table_lognormal_mdf", SS + ":calc_rest_sed_sfh_table_met_table", PK + ":calc_obs_mag", PK + ":calc_rest_mag"])

p("Sensitivity to the cosmological parameters and the redshift",
  "If one universe expands at most k times as fast as another out to redshift z, distances and lookback times to z in the other are at most k times those in the first (and the age, if this holds throughout the age integral). Raising the matter density from Om to Om' lowers distances, lookback time and age by at most the factor sqrt(Om/Om'); changing w0 and wa changes distances and lookback time by at most exp(1.5(|dw0| ln(1+z) + |dwa|(ln(1+z) - z/(1+z)))), and a larger equation of state at all times lowers them. The distance modulus, and every observed magnitude, moves by at most 2.5|log10(Om'/Om)| + (7.5/ln 10)(|dw0| ln(1+z) + |dwa|(ln(1+z) - z/(1+z))) + 5|log10(h'/h)|; observed colours are the same in all cosmologies. From redshift y to z > y the luminosity distance grows by at most z(1+z)/(y(1+y)) and the lookback time by at most z/y.",
  "every pair of cosmologies, redshifts, spectra and filters", "a relation between runs over all inputs", ["dsps/cosmology/flat_wcdm.py:comoving_distance_to_z", "dsps/cosmology/flat_wcdm.py:luminosity_distance_to_z", "dsps/cosmology/flat_wcdm.py:distance_modulus_to_z", "dsps/cosmology/flat_wcdm.py:lookback_to_z", "dsps/cosmology/flat_wcdm.py:age_at_z0", PK + ":calc_obs_mag"])

p("Sensitivity to metallicity, scatter and filter transmission",
  "Moving a galaxy's metallicity by D dex changes its metallicity weights by at most (35/48) D/s in total, s being the scatter; raising the scatter from s to s' changes them by at most 2(1 - s/s') in total and lowers none by more than the factor s/s'. If at each age SSPs of different metallicities differ at most by a factor R at some wavelength, such changes (for the metallicity table: at every time) change the spectrum there, for both SED functions, by a relative amount of at most e = (R-1)(35/96 D/s + 1 - min(s,s')/max(s,s')), and magnitudes by at most -2.5 log10(1-e). A transmission curve known to within factors lo and hi gives magnitudes to within 2.5 log10(hi/lo) and the effective wavelength to within the factor hi/lo.",
  "every galaxy within the metallicity limits, SSP library, history, filter, redshift and cosmology", "a relation between runs over all inputs", [MW + ":calc_lgmet_weights_from_lognormal_mdf", SS + ":calc_rest_sed_sfh_table_lognormal_mdf", SS + ":calc_rest_sed_sfh_table_met_table", PK + ":calc_obs_mag", PK + ":calc_rest_mag", DU + ":get_filter_effective_wavelength"])

p("Refining the SSP grids: spectra converge to the stellar population synthesis integral",
  "Let the SSP library tabulate a luminosity F(metallicity, log age). For continuous star formation and metallicity histories, the spectrum with exact age-bin shares differs from the synthesis integral (mean over birth times, weighted by the star formation rate, and over the triweight metallicity density about the metallicity at birth, of F at the exact age) over the stars of the age grid by at most twice the change of F between neighbouring grid points, per unit of mass; the spectrum computed from tables of the histories comes within that bound plus any epsilon for fine enough tables. Leaving out stars outside the age grid costs at most 2 max|F| times their share of the mass. Altogether, for fine enough SSP grids and then fine enough tables, both SED functions come within any epsilon of the mass formed times the mean luminosity of all stars born by t_obs. Such grids exist for every tolerance.",
  "every continuous history and library, every mildly spaced grid and every table, of any size", "a limit over all grids and tables", [SS + ":calc_rest_sed_sfh_table_lognormal_mdf", SS + ":calc_rest_sed_sfh_table_met_table", SW + ":calc_ssp_weights_sfh_table_met_table", SW + ":calc_ssp_weights_sfh_table_lognormal_mdf", MW + ":calc_lgmet_weights_from_lognormal_mdf", AW + ":calc_age_weights_from_sfh_table"])

p("Magnitudes converge to those of the stellar population synthesis integral",
  "For every continuous star formation history, metallicity history (or one metallicity distribution), library of spectra F(wavelength, metallicity, log age) and transmission curve: refining the SSP metallicity and age grids, and then the time table, the wavelength grid of the spectra and the wavelength grid of the filter (independently of each other), the apparent and rest-frame magnitudes computed by the package (SED from tables, then photometry) come as close as wished to the magnitude of the galaxy's exact spectrum: the mass formed times the mean luminosity of its stars over birth times and metallicities, integrated through the filter. The spectrum of the galaxy is a continuous function of wavelength.",
  "every continuous history, library and filter; every redshift at which the band is covered; every family of grids and tables of any size", "a limit over all grids and tables", [SS + ":calc_rest_sed_sfh_table_lognormal_mdf", SS + ":calc_rest_sed_sfh_table_met_table", PK + ":calc_obs_mag", PK + ":calc_rest_mag"])

p("Bursts on refined age grids",
  "The burst's age weights (_pureburst_age_weights_from_params) converge to the burst's triweight density in log10 age when the age grid is uniform: for every burst, every continuous function of log10 age and every tolerance there is a spacing such that on every equally spaced grid at least that fine, covering the burst and lying within fixed limits, the weighted mean of the function is within the tolerance of its mean over the density. On uneven grids it fails at every resolution: half of the density lies above the peak, but for every burst and every spacing there is a strictly increasing, mildly spaced grid nowhere coarser than it that covers the burst and puts at least three fifths of the burst's mass above the peak, because the samples of the density are not multiplied by the bin widths.",
  "all burst peaks and widths, all continuous functions, tolerances, grid lengths, starts and spacings; for the negative part all bursts and all resolutions",
  "convergence under refinement and its failure at every resolution are statements about infinite families of grids",
  [DB + ":_pureburst_age_weights_from_params", DB + ":calc_bursty_age_weights"])

p("Forward-mode derivatives",
  "jax.jvp (jax.jacfwd) and jax.grad agree: for every quantity covered by the gradient properties the tangent in every direction is finite and is the scalar product of the gradient with the direction, also at kinks such as a star formation rate on its floor; for instance the observed magnitude of a galaxy with respect to its star formation history, metallicity, scatter and dust. Where jax.grad is nan because of a where branch that is not taken or because of another entry of an array, jax.jvp is right: with a metallicity scatter of exactly 0 and a metallicity off the bin edges the tangents of the metallicity weights are 0 and those of every flux of the SED are the exact derivatives, and at mzr_t0_slope_hi = 0.3 the tangents of the other unbounded parameters are exact.",
  "all inputs of the differentiable functions covered by the gradient properties, all directions; all metallicities off the bin edges, all grids, histories and libraries; all admissible parameter vectors with slope_hi on its bound",
  "agreement and exactness are claimed for all inputs and all directions; nan-safety at a measure-zero set of inputs is not found by sampling",
  [SS + ":calc_rest_sed_sfh_table_lognormal_mdf", MW + ":_get_lgmet_weights_singlegal", U + ":_tw_cuml_kern", UM + ":get_unbounded_mzr_params", PK + ":calc_obs_mag"])

p("Derivatives of any order",
  "jax.hessian, jax.grad of jax.grad and every other nesting of forward and reverse mode, to any depth, return finite and exact higher derivatives: of the observed magnitude of the forward model with respect to all star formation rates, metallicity, scatter and dust; of the age weights, the metallicity weights and the bursty age weights; of cosmic age and distance modulus with respect to redshift and cosmology. jax.hessian of the magnitude holds all second partial derivatives and is symmetric. Excluded are only the joins of the piecewise definitions: a star formation rate equal to a floor, av <= 0, a metallicity exactly three scatters from a bin edge, an age exactly at an end of a burst.",
  "all nestings of forward and reverse mode, all inputs of the documented kind off the joins",
  "the order of differentiation is unbounded and the inputs are continuous; second derivatives of branches that are not taken can be nan at any depth although the value and the first derivative are fine",
  [SS + ":calc_rest_sed_sfh_table_lognormal_mdf", PK + ":calc_obs_mag", AW + ":calc_age_weights_from_sfh_table", MW + ":calc_lgmet_weights_from_lognormal_mdf", DB + ":calc_bursty_age_weights", CO + ":age_at_z", U + ":_tw_cuml_kern"])

p("Which inputs a result responds to",
  "A magnitude (rest frame or observed) responds to a pixel of the spectrum exactly if a filter sample of non-zero transmission lies strictly between the neighbours of the redshifted pixel (and within the spectrum); so an emission line that falls between two samples of the filter curve is missed however bright it is. The galaxy's spectrum responds to the flux of one SSP exactly if its metallicity bin meets the galaxy's metallicity distribution and its age bin contains birth times within the star formation table. The mass formed by a time responds to the star formation rate at a table time exactly if all earlier table times are before it - thus also to the rate at the next table time after it. The metallicity weights of two metallicities agree exactly if no bin edge lies strictly between the lower end of the lower distribution and the upper end of the upper one.",
  "every spectrum, filter, library, history, table and grid of the documented kind, every change of one entry",
  "an equivalence over all real tables and perturbations: a test can show that one entry matters but not that no other does, nor that a change of any size is invisible",
  [PK + ":calc_obs_mag", PK + ":calc_rest_mag", PK + ":_obs_flux_ssp", SS + ":calc_rest_sed_sfh_table_lognormal_mdf", MW + ":calc_lgmet_weights_from_lognormal_mdf", AW + ":_calc_logsm_table_from_sfh_table", U + ":cumulative_mstar_formed"])

p("Gradients of a galaxy population model built from all parts",
  "A user who fits a galaxy population composes the package: the mass formed by the time of observation gives the metallicity through the mass-metallicity relation in unbounded parameters, a burst in unbounded parameters is added to the smooth age weights, the spectrum is dimmed by the Salim+18 dust law with free slope and bump, and the result is the observed magnitude. The gradient of this magnitude with respect to all star formation rates, the burst, metallicity and dust parameters and the scatter - or with respect to the parameters of any differentiable model they come from - is finite whatever their values (positive scatter), and it is the exact gradient unless a star formation rate equals a floor, the evolution term of the mass-metallicity relation is zero, no age of the grid lies in the burst (never the case on a grid from 1 Myr to 10 Myr with gaps below two dex), the unclipped dust curve vanishes at a wavelength, or av is zero. The same holds for the model with a metallicity history instead of a single metallicity (exact unless a rate equals a floor or av is not positive). Forward and reverse mode agree.",
  "all tables, grids, libraries, filters and redshifts of the documented kind, all parameter values with positive scatter, all differentiable models the parameters come from",
  "the composed program has a branch for every clip, floor, guard and table cell; a test can compare the gradient with finite differences at a few points but not exclude a nan or a wrong value elsewhere in a space with dozens of dimensions",
  [SS + ":calc_rest_sed_sfh_table_met_table", UM + ":mzr_model", UM + ":get_bounded_mzr_params", DB + ":calc_bursty_age_weights_from_u_params", AC + ":sbl18_k_lambda", PK + ":calc_obs_mag"])

p("Overflow and underflow in magnitudes, distances and times",
  "In IEEE single precision (the precision of float32 arrays, or of a session in which the 64-bit mode that importing dsps switches on has been switched off; smallest normal number 1.2e-38, subnormals flushed to zero as XLA does) the package neither overflows nor underflows to an infinite or nan result on the documented domain: for matter densities from 0.01 to 1, w0 and wa up to 10 in magnitude with w0 + wa <= 0, h from 0.01 to 100 and redshifts from 1e-6 to 1000 the comoving, luminosity and angular diameter distances, the lookback time and the age of the universe today are positive finite numbers, and the distance modulus and the age at a redshift are finite; rest-frame and observed magnitudes are finite when the spectrum lies between 1e-20 and 1e3 Lsun/Hz and the filter, between 100 Angstrom and 1 mm, has a transmission of at least 1e-3 at some sample inside the spectrum. In double precision the spectrum may lie between 1e-200 and 1e100. But in single precision every spectrum that nowhere exceeds 1e-36 Lsun/Hz has magnitude +inf although its exact magnitude is a number below 60.",
  "all cosmological parameters, redshifts, wavelength grids, spectra and filter curves in the stated ranges, all grid sizes",
  "the extreme intermediate values (densities of dark energy at redshift 1000, cells of a fine grid times a faint spectrum) occur in corners of a space of arrays of any size; a test samples a few of them, in one precision",
  [PK + ":calc_rest_mag", PK + ":calc_obs_mag", CO + ":comoving_distance_to_z", CO + ":luminosity_distance_to_z", CO + ":angular_diameter_distance_to_z", CO + ":distance_modulus_to_z", CO + ":lookback_to_z", CO + ":age_at_z0"])

p("The galaxy model neither overflows nor becomes nan in single precision",
  "With the exponents of IEEE single precision (or double), subnormals flushed to zero, the computation from a star formation history to weights, spectrum and magnitude has no infinite or nan result for: rates from 0 to 1e8 Msun/yr at tabulated times from 0.011 to 100 Gyr that are at least a Myr apart, grids of at most 1000 ages and 1000 metallicities with increasing bin edges, a lognormal metallicity distribution or a metallicity history whose kernels lie inside the outermost metallicity edges, and a time of observation by which a whole cell of the table lies between the births of the oldest and the youngest stars of the grid. The weights of the populations are finite, non-negative up to 1e-28, and sum to one up to 1e-26; the spectrum lies between 0.9 times the faintest population spectrum times the mass formed by any tabulated time before the observation, and 1.1 times the brightest times the mass of the whole table; and if those bounds lie between 1e-20 and 1e3 Lsun/Hz the rest-frame and observed magnitudes are finite.",
  "all tables of times, rates and metallicities, SSP grids, population spectra, filters, redshifts and cosmologies in the stated ranges, all table and grid lengths (grids up to 1000), every exponent range at least as wide as single precision",
  "masses from 1e-8 to 1e19 Msun, logarithms of quiescent rates, differences of nearly equal masses and kernels evaluated outside their support occur in corners of a space of arrays of any size; a test samples a few of them",
  [SS + ":calc_rest_sed_sfh_table_lognormal_mdf", SS + ":calc_rest_sed_sfh_table_met_table", SW + ":calc_ssp_weights_sfh_table_lognormal_mdf", AW + ":calc_age_weights_from_sfh_table", MW + ":calc_lgmet_weights_from_lognormal_mdf", MW + ":calc_lgmet_weights_from_lgmet_table", PK + ":calc_rest_mag", PK + ":calc_obs_mag"])

p("Metallicity relations, stellar returns, dust and bursts are exact in single precision up to rounding",
  "With the exponents of IEEE single precision (or double) and subnormals flushed to zero, the components beside the galaxy model return a finite number within 1e-15 of the exact formula: both mass-metallicity relations for parameters up to 20 in magnitude, the mass of stellar remnants and the surviving mass fraction, the transmitted fraction under each of the four attenuation curves with a power law or a UV bump (wavelengths 0.01 to 50 micron, Av up to 20, slopes up to 1.5, bump amplitudes up to 10), and the age weights with a burst, from its parameters or from the unbounded parameters of a fit, on at most 1000 ages of which one lies within four fifths of the half-width of the burst. No overflow inside a logistic function, no underflow of the transmission, of a kernel or of a tiny burst fraction shows in the result.",
  "all parameters, masses, times, wavelengths, age grids and smooth weights in the stated boxes; every exponent range at least as wide as single precision",
  "exponentials and powers inside these formulas span hundreds of decades over the parameter boxes; the combinations that overflow or underflow cannot be enumerated",
  [UM + ":mzr_model", MZ + ":mzr_model", RM + ":remnant_mass", SM + ":surviving_mstar", AC + ":noll09_k_lambda", AC + ":sbl18_k_lambda", AC + ":_frac_transmission_from_k_lambda", DB + ":calc_bursty_age_weights", DB + ":calc_bursty_age_weights_from_u_params"])

p("Tables are second-order accurate: half the gap, a quarter of the error",
  "For functions with continuous second derivatives the package's tables are second-order accurate in their widest gap: the trapezoid rule is within M gap^2 / 12 per unit length of the integral and interpolation within M gap^2 / 8 of the function, M bounding the second derivative (and the quadrature bound is attained); so is the mass formed between two times of a star formation history's table, the flux of a tabulated spectrum through a tabulated filter (with explicit constants), and, with constants independent of table and interpolation guard, magnitudes at any redshift, the mass formed by any time, the age weights, the SED, the age weights with a burst, the metallicity read off a table of a smooth metallicity history, and the SED with a metallicity history.",
  "every star formation history, spectrum and transmission curve with continuous second derivatives (histories nowhere below the floor); every increasing table with gaps above the guard of jnp.interp",
  "an order of accuracy relates the errors on all tables; comparing two resolutions of one history cannot exclude a slower rate for others",
  [U + ":trapz", U + ":cumulative_mstar_formed", AW + ":calc_age_weights_from_sfh_table", PK + ":calc_rest_mag", PK + ":calc_obs_mag", SS + ":calc_rest_sed_sfh_table_lognormal_mdf"])

p("Mass and ages depend on the observation time smoothly, with known constants; an onset of star formation is delayed",
  "Between two table times the mass formed is a power of time: the implied star formation rate is p M / tau with p the logarithmic growth of the mass over the cell, it never exceeds the cell's mean tabulated rate times the larger of the time ratio and one plus the logarithm of the mass ratio, so the mass formed by any two times and the age weights at any two observation times differ by at most an explicit constant times the time difference. The same law delays an onset: if the mass grows over the cell as the q-th power of time at least, at most the share (tau / t_end)^q of it counts as formed by tau, and the implied rate can exceed every tabulated rate (sixfold for the table 0, 1 Msun/yr at 1, 10 Gyr).",
  "every resolved table of times and rates, every floor, every cell, every two times and observation times, every SSP age grid",
  "a Lipschitz constant bounds the change for every pair of times and an excess of the rate depends on a limit at the end of the cell; tests try a few times of smooth tables",
  [AW + ":calc_age_weights_from_sfh_table", U + ":cumulative_mstar_formed"])

p("Errors reach magnitudes in proportion: of the spectrum, of the star formation history, of the observation time",
  "A spectrum between p and q times another one has magnitudes between -2.5 log10 q and -2.5 log10 p fainter (at rest or at any redshift), so a relative error e of a spectrum changes no magnitude by more than 1.09 e. Consequently the magnitude of a galaxy with a smooth star formation history given as a table differs from that of the exact history by at most C times the square of the widest time step, with one C for all filters, redshifts and cosmologies, and the magnitudes at two observation times differ by at most an explicit constant (largest rate, growth of time and mass between table times, contrast of the SSP spectra, mass formed in the age range) times the time difference. Both hold with a metallicity history too: the metallicity that stars of a given age were born with moves by at most L / (t0 ln 10) dex per Gyr of observation time, L being the history's steepest slope in dex per dex of time and t0 the table's first time, and the magnitudes by a further multiple of that over the scatter. Both hold for a galaxy with a burst on top of its smooth history, with the constants of the smooth galaxy. For a galaxy observed at the age of the universe at its redshift, replacing h by h' makes every age h/h' times as long and changes the apparent magnitude by -5 log10(h'/h) up to an explicit multiple of the change of age; between any two cosmologies it changes by at most the distance bound of C154 plus an explicit multiple of the difference of the ages. Observing at the age which the package computes in place of the textbook age of a flat LCDM universe at that redshift (2/(3 sqrt(1-Om0)) arsinh sqrt((1-Om0)/(Om0 (1+z)^3)) Hubble times) changes the magnitude by at most an explicit multiple of the error of the age, itself bounded.",
  "every two positive spectra, filter, redshift above -1; every history with continuous second derivative and every table of it; every resolved table and every two observation times with populated age bins",
  "one constant must serve all filters, redshifts, tables and pairs of times",
  [PK + ":calc_obs_mag", PK + ":calc_rest_mag", SS + ":calc_rest_sed_sfh_table_lognormal_mdf", AW + ":calc_age_weights_from_sfh_table"])
