# Formal model of ArgonneCPAC/dsps in Lean 4

## Layout

* `properties.jsonl` – the semantic properties C01, C02, … (generated by `tools/gen_properties.py`).
* `lean/Verif/Jnp.lean` – the fragment of numpy/jax.numpy that dsps calls (diff, slices, `.at[].set`,
  trapezoid, linspace, logspace, interp, sigmoid …), as Lean functions.
* `lean/Verif/Model/*.lean` – one file per dsps source file, definition by definition; every definition
  cites file and lines in `/repo`.
* `lean/Verif/Spec.lean` – the small independent specification vocabulary used by theorem statements
  (`IsProbVector`, mathematical textbook formulas, …). Nothing in it mentions the model.
  Specifications used by one area only (e.g. `Sfh.sedFrom`, the SED of a star formation history given as a function of time, or `massInRange`) are
  definitions marked **Specification** at the head of that area's file in `Props`; larger ones are in `SpecAge.lean`, `SpecCosmo.lean`, `SpecBlackbody.lean`, `SpecLstsq.lean`, `SpecSvd.lean`.
* `lean/Verif/Lemmas/*.lean` – helper lemmas.
* `lean/Verif/Props/*.lean` – the property theorems, one file per area. Next to every theorem that has hypotheses there is an
  `example` that applies it by name to concrete inputs, so its hypotheses are met by a non-trivial case (the inputs shared between
  files are in `lean/Verif/Cases.lean`: a three-point star formation table, age and metallicity grids, a flux table, a filter, PLANCK15,
  a toy world of files). The generic rounding-layer theorems (C97–C99, C112–C118: any arithmetic satisfying the standard model) are
  shown non-vacuous through their `_float64`/`_float32` corollaries, whose examples exhibit an actual result of round-to-nearest
  arithmetic, and through the `*_nonempty` lemmas.
* `MANIFEST.json` – property → theorem names. `seeded/LOG.jsonl` – mutation attempts against the model.

## Trusted base

* Lean 4.33.0's kernel and Mathlib as installed. Every property theorem depends on at most
  `propext`, `Classical.choice`, `Quot.sound` (checked with `#print axioms` by vcheck's audit).
  No axioms added, no native_decide / bv_decide.
* The reading of the Python source recorded in the model (each definition cites its lines).
* The reading of numpy / jax.numpy recorded in `Jnp.lean`, and of JAX's derivative rules recorded in `Rev.lean`.

## What is modelled, and how

* **Numbers.** jax/numpy floats are modelled as exact real numbers `ℝ`. Rounding, overflow, underflow,
  float32-vs-float64, and XLA's re-association are *not* modelled. Consequence: "exactly" in a property
  means exactly in real arithmetic.
* **NaN / ±inf.** In `ℝ`, Lean's `x / 0 = 0` and `log x` for `x ≤ 0` are junk values. Theorems whose real
  computation could hit these points carry an explicit guard (a hypothesis that the denominator or log
  argument is non-zero/positive, or a theorem proving it), and the separate layer `Verif/XF.lean`
  (extended floats: nan, ±inf, finite reals with IEEE conventions) re-models the functions where NaN and inf
  are reachable, with theorems saying exactly when the result is NaN.
* **Arrays.** JAX arrays have static shape, so an array is a function `Fin n → ℝ`, with `n` universally
  quantified (no size bound). Matrices are curried functions. `vmap` is "apply at every index"; nesting
  order follows the source. Functions whose code indexes `[2]`, `[-3]` etc. take `Fin (n+3) → ℝ`, which
  is exactly the set of inputs on which the code does not fail.
* **`jnp.interp`.** Modelled as implemented by JAX: `searchsorted(xp, x, side="right")` clipped to
  `[1, len-1]`, the epsilon guard on `dx`, then left/right fill.
* **Exceptions** are values (`Except`/`Option`). **Text, files, environment, HDF5, FSPS, RNG** are
  parameters/oracles: a file system is a function from paths to contents, an RNG is a stream of draws, FSPS is a
  record of functions.
* `jnp.linalg.lstsq` is a parameter constrained by the least-squares specification (a minimiser of
  ‖Ax-b‖ – the spec is proved satisfiable).
  C116 replaces it by JAX's algorithm (singular value decomposition with cutoff `eps * max(n, m)`, `Model/JaxLstsq.lean`) and shows when the two agree.

## What is not modelled

* Floating-point rounding in the main model (see "Rounding layer" for the part that is modelled).
* JAX tracing and compilation beyond the jit layer (7 below) and the AD layer; performance.
* Rendering by matplotlib: `make_mzr_comparison_plot` is modelled as the list of artists it creates (C123, C124). Every function of the
  package has a counterpart in the model.
* The HDF5 byte format and real disk I/O (a file is a map from dataset name to array); numpy's ASCII table lexer
  (the parsed table is the input); the FSPS Fortran library (an oracle).
* Shape errors and broadcasting of ill-shaped inputs outside the shape layer (9 below): each other theorem ranges over arrays of
  the documented shapes. Non-float inputs.

## The layers of the model

1. **Real layer** (`Jnp.lean`, `Model/*.lean` without the `XF` prefix). Every numerical function over `ℝ`.
2. **Extended-float layer** (`XF.lean`, `Model/XF*.lean`). `XF = nan | +inf | -inf | fin r`, with IEEE-754 conventions for
   `+ - * / exp log pow` at the special values, jax's `where`, `clip`, `sum`, `interp` on them, and no rounding, overflow
   or underflow (so a result is non-finite in this layer exactly when the *mathematical* operation is undefined or
   infinite). Functions where special values can arise are modelled a second time here; theorems C78–C86 say exactly
   when results are finite, and lemmas in `Lemmas/XFSed` tie finite results to the real layer (`fin` of the real model).
3. **Loader layer** (`Py.lean`, `Model/Load*.lean`, `RetrieveF*.lean`, `EmlinesInfo.lean`). Python strings are `List Char`/`String`, exceptions are
   `Except PyErr`, arrays are nested lists (so ragged/empty data are representable), and the file system, environment variables,
   FSPS, h5py and numpy's legacy RNG are explicit parameters (`World`, `Fsps`, `Jran`, draw streams).
4. **Rounding layer** (`Fl.lean`, `Model/Rounded.lean`). The standard model of floating point: each operation returns *some* number within
   relative distance `u` of the exact result (set-valued, so FMA contraction and extended precision are covered), reductions are evaluated in
   an arbitrary order described by a `SumTree`, and there is no overflow or underflow. Re-modelled here: `cumulative_mstar_formed`, the
   weight normalisations, the joint weights, the SED sum, `calc_rest_flux`/`calc_rest_mag` including `interp`; and in `Model/RoundedSed.lean`
   the age weights, the mass normalisation, both metallicity-weight functions and both SED functions from the inputs on, with `log10` and `10**x`
   as library functions of accuracy `v` (C112–C115: the weights are differences of masses, so the error is absolute and depends on the
   conditioning, which the hypotheses name); in `Model/RoundedCosmo.lean` the cosmology (C117); in `Model/RoundedObs.lean` magnitudes, rest frame and observed frame (C118); and in `Model/Rounded{Dust,Mzr,Burst}.lean` dust, sigmoid relations and bursts (C129, C135–C138).
   `Lemmas/Round.lean` shows round-to-nearest `p`-bit binary arithmetic is an instance (`p` = 24, 53), monotone and closed.
5. **AD layer** (`Flt.lean`, `Rev.lean`, `Model/Gen.lean`, `Model/GenMore.lean`). The differentiable functions are written once more, over an
   abstract float type `Flt α` whose operations are the primitives of jax.numpy. The *same program text* is run on `XF` (checked in
   `Lemmas/GenCheck.lean` to be the functions of the extended-float layer, by `rfl`-style lemmas `*_xf`) and on `Rev.Rv ι`, a float together with its back-propagator,
   i.e. under `jax.grad`. The rules in `Rev.lean` are JAX's transposed derivative rules (`+ - * / where integer_pow exp log log10 10** sqrt
   logistic pow take sum`), evaluated in `XF` arithmetic, so that a `0 * inf = nan` in a branch of `jnp.where` that is not taken is seen.
   Specification: `Traced s x f θ` – the recorded float has the finite value `f θ` of the *real layer*, returns finite gradients `c * g i`, and if `s`
   holds these are the partial derivatives (`HasFDerivAt`); `GradOk` is its corollary for `jax.value_and_grad`. Inputs are "any differentiable
   model" (`Traced True`), so the theorems compose by the chain rule. Not modelled: JAX sums the cotangents of a shared number before it propagates
   them, here they are propagated one by one; the two agree whenever all cotangents are finite, which the theorems establish (`Traced` requires it for every
   intermediate), and in the nan witnesses (C106) nan arises in the cotangent of a single operation and nan absorbs under addition either way. Rounding, overflow and
   underflow are not modelled here.
   Every recorded number also carries its forward-mode tangent (JAX's `jvp` rules of the same primitives; a constant has tangent 0 where JAX uses a symbolic zero, which can only turn a tangent into nan, never the reverse), so each gradient
   theorem (`Traced`, `GradOk`) covers `jax.grad` and `jax.jvp` at once.
   *Nested differentiation* (`Nested.lean`, C160). The same programs run on `Nest ι ms`: for a list `ms` of modes, reverse (`RvO α`) or forward (`Fw α`) numbers
   stacked over each other, `jax.hessian = jacfwd(jacrev f)` being `[.rev, .fwd]`. `DerivsOk` says that every nested derivative that the stack returns is finite and is
   the iterated partial derivative of the real layer. Shared cotangents are propagated one by one as above. The joins of the piecewise definitions (kernel edges, knots of
   `jnp.interp`) are excluded at order two and above, where the mathematical derivative need not exist (the kernel is C³, the interpolants are only continuous).
6. **Import layer** (`Model/Imports.lean`). The module graph of the package with the import statements of every file in order, executed by a model of
   Python's import system (`sys.modules`, packages before submodules, error on importing from a half-executed module), together with the process-wide
   flag `jax_enable_x64` and the constants computed by JAX at import. Events: import any module, set the flag. Conservative: `from t import name` is an error
   whenever `t` is half executed; that the imported names exist is not modelled.
7. **Jit layer** (`Model/JitHistory.lean`). `jax.jit` as a cache from call signatures to recorded programs, for the one module whose jitted
   functions read a mutable global (`umzr.MZR_PBDICT`), including the nested jitted function `_get_mzr_t0_slope_hi_from_unbounded` with its own cache. Which calls
   share a signature is arbitrary. Caches are assumed never to be evicted (`jax.clear_caches()` is not an event).
8. **Library-algorithm lemmas.** `Lemmas/SearchSorted.lean` proves that JAX's actual binary-search loop (`scan` method) returns the count
   used in the definition of `searchsorted` in `Jnp.lean`, so the specification-style definition is not an extra assumption.
   `Lemmas/Lstsq.lean` proves the least-squares specification satisfiable and its consequences.
   `Lemmas/InterpCont.lean`, `Lemmas/Smooth.lean` hold the continuity theory of `interp` and the triweight kernels.
9. **Shape layer** (`Nd.lean`, `Model/Nd*.lean`). Arrays whose shape is run-time data: `Arr` = list of dimensions + function of a multi-index. numpy's
   broadcasting, `reshape` with `-1`, slices, `.at[].set` (which broadcasts the value to the slice and rejects higher ranks), axis reductions,
   `jnp.interp`'s demand for one-dimensional tables of equal length, `linspace` of an array (new axis first), `trapezoid` along the last axis,
   `vmap` (raises on scalars and on unequal leading dimensions), `lax.scan`'s demand that the carry keep its type; failures are `Except PyErr`.
   The SED pipeline, the cosmology and the photometry are written statement by statement over it; C119, C121, C122 tie them to the real layer, C120–C122
   say which other shapes are accepted and with what result. Left open (class `Edge`, theorems hold for every behaviour): a static index past the
   end of an axis and `interp` in tables of fewer than two points. Which exception class is raised is not claimed. Cosmological parameters are scalars.
10. **Range layer** (`Range.lean`, `Model/GenBlackbody.lean`). Floats whose results are forced into the range of a format (`float64`, `float32`, or any
   other): larger magnitudes become infinite, smaller ones zero (denormals flushed, as XLA does on CPU); results inside the range are not rounded.
   `RvO α ι` is the reverse mode of the AD layer carried out entirely in such a float type, so that overflow in the backward pass is visible.
   Blackbody spectra are modelled here (C125).

## Findings: where the code and the English property disagree

Each item is backed by a machine-checked theorem where an id is given; the corresponding MANIFEST claim is `partial` when the
property itself is false.

1. Bin edges from `_get_bin_edges` (mid ± half of the *averaged* neighbour spacing) are not monotone on irregular grids, so
   histogram/metallicity/age weights can be negative there (C05_edges_not_monotone, C17_negative_weight, C21).
2. Docstring: stars formed before the first table entry are documented as "SFR_MIN"; the code uses a linear ramp from it (C13).
3. Age weights are 0/0 when no age bin intersects the table (C17_total_mass_pos_iff, C80), and whenever the SFH table starts at
   `t ≤ 0.001 Gyr` (C80_early_table_nan) – including the table made by dsps' own `_get_linspace_time_tables` (C80_linspace_table_nan).
4. `sfr_min` given to the SED kernels changes the mass normalisation but is not forwarded to the weights (C26). Age weights are also
   not exactly invariant under rescaling the SFR, because of the `SFR_MIN` floor.
5. Bursty age weights sum to `1-fburst` when no grid age lies in the burst support (C30_mass_lost), and jump there (C92_jump).
   A burst of zero duration gives nan/zeros (C85).
6. `mzr_t0_slope_hi` can exceed the upper bound 0.3 of `MZR_PBOUNDS` (C32_slope_hi_exceeds); `get_ran_t0_params` can draw
   `slope_hi > slope_lo`, on which the unbounding transform is nan (C87_inadmissible_draw).
7. The MZR at z=0 is not monotone on part of the admissible parameter region (C36_not_monotone).
8. `surviving_mstar` is not exactly monotone near `lg_age ≈ 6` (C37).
9. Calzetti curve: jump at 0.63 µm and jump to the Leitherer branch at 0.15 µm; value ≤ 0 beyond ≈ 3.115 µm (C58).
10. `load_transmission_curve` tests `transmission.min() > 1+TOL` where `max()` is meant (C67_exceeding_accepted).
11. `age_at_z` is negative for z ≥ 1100 because the quadrature starts at a finite redshift (C52_age_negative_at_high_z; C52_age_sign: exactly one sign change, between z = 35 and z = 7200, in every flat LCDM cosmology).
12. `write_fsps_data_to_disk` script raises AttributeError when `ssp_emline_wave` is None (C69_no_lines_script_raises), leaving a loadable partial file.
13. Fake line-name loop does not terminate for `n_line > 17576` (C70_never_terminates).
14. `get_subset_emline_data` raises IndexError on an empty list (C66).
15. `load_ssp_templates(dummy=True)`-style calls still read packaged files (C68).
16. Random filters: the centre can lie outside the requested range when the range is < 4·scale (C72).
17. FSPS loop: an empty `zlegend` raises NameError (C71).
18. `read_emlines_info_fsps` fails on a trailing blank line; `get_fsps_emline_info` silently ignores extra commas (C65).
19. `powerlaw_pdf` at exponent 0 is nan, `powerlaw_rvs` constantly 1 (C84).
20. Zero metallicity scatter exactly on a bin edge gives nan (C79_zero_scatter).
21. Blackbody is nan at ν=0 / λ=0 (C83). Distance modulus is -inf at z=0, so observed magnitudes at z=0 are -inf (C82).
    Dead filters give nan magnitudes (C81_dead_filter) and nan effective wavelength (C86).
22. Observed flux jumps when a filter sample crosses the end of the redshifted spectrum (C94_jump_at_edge).
23. Gradients: with metallicity scatter exactly 0 the weights are finite but `jax.grad` returns nan for all weights and SED fluxes (C106); at z=0 the
    distance modulus has gradient nan (C106); at `av = 0` the gradient is the one-sided derivative (C107).
24. Read but not stated as theorems: `_get_lg_age_bin_edges` docstring typo; the first
    loop in `interpolate_filter_trans_curves` is dead code; `_get_matched_emline_name` returns "" on a non-unique match, so the
    namedtuple constructor raises; RestSED docs give the weights' shape as (n_met, n_ages, 1), actual (n_met, n_ages); the `plot_mzr`
    legend swaps solid/dashed labels; integer-typed exponents (`10**lgfburst` with a Python int) follow JAX's integer power and integer irregular time grids are
    truncated by `zeros_like` in `_jax_get_dt_array` (all arrays are real-valued in the model).
25. `TODAY` is computed in 32-bit precision unless the user enabled 64-bit mode before: `dsps/__init__` imports `photometry` (which loads
    `cosmology.defaults`) before `sed` switches 64-bit mode on (C110_today_single_precision). Importing dsps overrides the user's flag, and the first
    import of a `dsps.dust` module does so again (C110_flag_after_import).
26. Assigning to `umzr.MZR_PBDICT` after the import has no effect on calls whose signature was already traced - `get_unbounded_mzr_params` was traced by
    the import itself - while `get_bounded_mzr_params` picks the new bounds up, so the two are no longer mutually inverse (C111_roundtrip_broken).
27. The continuum fit discards singular values below `eps * n` (`n` = length of the *whole* spectrum). In double precision this never matters for sensible windows
    (C116_float64), but for float32 spectra of 1000 samples or more continuum windows within 1% of a wavelength lose the curvature (C116_float32); the
    error inside the windows is bounded by C116_cutoff_residual.
28. Shapes (C119–C122). Documented wrongly: the joint weights have shape `(n_met, n_ages)`, not `(n_met, n_ages, 1)`; `lgmet_weights` of the tabulated
   version is `(n_met, n_ages)`, not `(n_met,)`; `gal_lgmet` of shape `(n_t,)`, as the docstring of the lognormal SED function has it, raises;
   `virial_dynamical_time` raises on a float. Accepted in silence with a meaningless result: a stack of flux tables (summed over stack and metallicity), a flux
   table with exchanged axes when `n_met = n_ages`, a column of observation times (normalised over the batch), an array redshift in
   `comoving_distance_to_z` (256 numbers) and `lookback_to_z` (512), in the other distances when it has 1 or 256 entries, and a one-entry redshift array in
   `calc_obs_mag` (256 numbers).

29. The legend of `make_mzr_comparison_plot` names the two models the wrong way round: the solid curves are `params` but are labelled
   `label2` ("default model"), the dashed ones are `params2` but labelled `label1` ("new model") (C123_legend_swapped). The function also leaves
   every figure open in pyplot, even when it raises (C124_figures_leak).
30. Gradients of the blackbody spectra are nan wherever `exp(h ν / k T)` overflows (double precision: `h ν / k T ≥ 709.783`, e.g. 1 µm at 20 K): the value
    is a correct zero, but the backward pass multiplies `1/(exp x - 1)² = 0` by `exp x = inf`. One such wavelength in a grid poisons the gradient of any
    sum over the grid (C125_sum_overflow). In single precision (float32 arrays passed by the caller; the package itself enables 64 bits on import) `(k T)²` underflows and the gradient with respect to the temperature is
    infinite or nan at *every* frequency up to 7800 K (C125_freq_single, C125_wave_single; with denormals kept, up to about 3900 K).
31. A run of `write_fsps_data_to_disk.py` interrupted between the fourth and the fifth dataset leaves a file that `load_ssp_templates` accepts in silence as data
    without emission lines (C126_unnoticed_loss).
32. `_jax_get_dt_array` truncates the cell widths of an integer grid (`zeros_like` has the integer dtype): an unevenly spaced integer metallicity or log-age grid
    gives other weights than the same grid as floats (C127_int_grid_differs).
33. Far in the Rayleigh-Jeans tail (`hν/kT ≤ 2^-54` in double precision) `exp(x) - 1` rounds to zero and the blackbody functions divide by zero; `expm1` would not
    (C128_denominator_vanishes).
34. Burst parameters given as arrays are normalised together, not per burst: `q` bursts as `(q, 1)` columns get total weight `q - (q-1) f` instead of `q`
    (C131_batch_loses_mass), and a plain vector of as many bursts as ages is silently paired with the ages (C131_vector_pairs).
35. The equivalent-width kernels mask by multiplying with 0 or 1: a single nan pixel (or an infinite one outside the continuum windows) anywhere in the spectrum, also far from
    all windows, turns every output into nan (C134_nan_pixel), although the result does not otherwise depend on it (C133_locality).
36. A bounded mass-metallicity parameter saturates in double precision once `0.1 (u - mid) ≥ 38`: all such `u` give the same number and the inverse returns an infinity or another value
   (`C136_saturation`). `_sigmoid` may return a number above `yhi` by one rounding when `ylo + (yhi - ylo)` rounds up (`C136_bound_exceeded`); none of the package's bounds do this.
37. Burst parameters saturate in double precision once `u_lgyr_peak ≥ 400`: peak `10^8` yr, and then the end is `10^9` yr whatever `u_lgyr_max` (`C138_saturation`); the inverse
   function would divide zero by zero there. Long before, recovering `u_lgyr_max` is ill-conditioned: the allowed range of the end is `8 - lgyr_peak` (`C138_params_roundtrip`).
38. More star formation can mean less light: because the cumulative mass is interpolated in log mass, raising the rate at one table time from 1 to 4 Msun/yr can lower the mass assigned to the youngest age
   bin, hence the spectrum where only young stars shine (`C142_not_monotone`; table 1 and 10 Gyr, rate at 10 Gyr 1109 Msun/yr). Total mass is monotone (`C142_mass_monotone`).
39. Equivalent widths of a batch of spectra (C148): flux of shape `(n, n)` (as many spectra as wavelengths) or `(n, 1)` is accepted silently by `_ew_kernel`; the quadratic is fitted down the columns
   with the row's weights, so the continuum in the line window is zero and the "line flux" is the whole flux in the window (`C148_square_flux`). Every other 2-d shape, also `(1, n)`, raises.
40. `jax.grad` of `get_unbounded_mzr_params` with respect to `mzr_t0_slope_hi` is nan at `mzr_t0_slope_hi = 0.3`, the upper end of `MZR_PBDICT`, although the values are finite: the entry that is computed
    with the square bounds and then overwritten has derivative 0/0 there (C150_mzr_unbounding_nan).
41. `_ew_kernel`, `_continuum_line_decomp_kern`: `jax.grad` with respect to the edges of the windows is identically zero (the masks carry no gradient) although the result jumps when an edge crosses a wavelength: windows cannot be
    fitted by gradients (C151).
42. `powerlaw_rvs` with a negative index: `ag + (bg - ag) r` cancels near the upper bound, so the relative error of a draw grows like `(b/a)^(-g)` roundings; in single precision with index -1, bounds 1 and 2^26, the draw for the largest deviate is over 10% too large (C152).
43. `_pureburst_age_weights_from_params` normalises samples of the burst's density without multiplying by the widths of the age bins: on an age grid twice as dense above the peak as below, at least three fifths (in the limit two thirds) of the burst lies above its peak, however fine the grid, against one half of the density; on uniform grids it converges (C158).
44. Where `jax.grad` gives nan because of an untaken branch of `jnp.where` (metallicity scatter 0, C106) or because of another entry of an array (`mzr_t0_slope_hi` on its bound, C150), `jax.jvp`/`jax.jacfwd` of the same code is finite and exact (C159).
45. The spectrum is interpolated at the samples of the *filter* curve: a narrow emission line of the spectrum that falls between two filter samples does not contribute to the magnitude at all, whatever its
    flux (C161_line_missed); and the mass formed by a time depends on the star formation rate at the next table time *after* it (C161_mass_rate).
46. In single precision the magnitude of a spectrum below 1e-36 Lsun/Hz in the filter is `+inf` (the products underflow to zero), although the exact magnitude is finite, about 60 (C163; `C163_underflow_is_spurious`). The FSPS tables contain such values (floor 1e-70) beyond the Lyman limit of old populations; double precision does not have this problem down to 1e-200.
47. Between table times the mass formed follows a power of time (interpolation in the logarithms), so an onset of star formation after a quiescent table entry is pushed to the end of its cell: for a rate rising in a straight line from 0 at 1 Gyr to 1 Msun/yr at 10 Gyr, given as a table with these two times, less than 7 per cent of the mass counts as formed by 8.2 Gyr although 64 per cent is (`C167_onset_late`), and just before 10 Gyr the implied rate is over six times the largest tabulated one (`C167_rate_exceeds`). Tables must resolve the onset.

## Per-property plan

| id | model | proof |
|---|---|---|
| C01 | `utils._tw_cuml_kern` | polynomial factorisation, piecewise nlinarith/monotone via derivative |
| C02 | `utils._tw_gauss`/`triweight_gaussian` | derivative of polynomial, one-sided at edges; FTC for the integral |
| C03 | `utils.triweighted_histogram` | telescoping over `Fin n` + monotone CDF |
| C04 | `utils._get_triweights_singlepoint` | telescoping with end bins replaced |
| C05 | `utils._get_bin_edges` | ends by definition; ordering false on irregular grids: witness + `_partial` with the sharp mesh-ratio condition |
| C06 | `utils._jax_get_dt_array` | positivity, telescoping sums |
| C07,C08 | `utils._sigmoid`, `_inverse_sigmoid` | exp/log algebra, strict monotonicity |
| C09 | `utils._sig_slope`, `_tw_sig_slope` | chord slope is a convex combination |
| C10,C11 | `utils.cumtrapz`, `utils.trapz` | induction on length / scan unfolding |
| C12,C13 | `utils.cumulative_mstar_formed` | trapezoid sums; documentation claim refuted by witness |
| C14 | `utils._mult_2d/_3d`, vmaps | finite sums |
| C15,C16 | `utils.powerlaw_pdf/_rvs` | Mathlib `integral_rpow`, inversion algebra; push-forward of the uniform measure (`RandomDist`) |
| C17–C20 | `sed/stellar_age_weights.py` + `jnp.interp` | monotone interpolation, telescoping; NaN conditions explicit |
| C21,C22 | `sed/metallicity_weights.py` | via C04-type kernel |
| C23–C26 | `sed/ssp_weights.py`, `sed/stellar_sed.py` | finite-sum algebra, convexity |
| C27–C31 | `sfh/diffburst.py` | sigmoid bounds, triweight support, `_zero_safe_normalize` |
| C32–C36 | `metallicity/umzr.py`, `mzr.py` | sigmoid bounds/inverses; `min` clip; calculus for monotonicity |
| C37,C38 | `imf/*.py` | numeric interval bounds on sigmoid with the four shipped parameter sets |
| C39–C44 | `photometry/photometry_kernels.py` | trapezoid linearity, `logb` algebra, interp rescaling |
| C45 | `photometry/photpop.py` | vmap index identities |
| C46,C47 | `photometry/utils.py`, `photpop` helpers | linspace, interp range, weighted mean |
| C48–C54 | `cosmology/flat_wcdm.py` | algebra over finite quadrature sums; monotone termwise bounds; negation witness for age positivity. Monotonicity of the 256/512-node quadratures in z for every z ≥ 0: `Lemmas/LcdmHigh` (cell by cell comparison), `Lemmas/LcdmComoving`, and for one remaining compact rectangle (s∈[0,1], y∈[1/8,12], all real points) the interval checker of `Lemmas/LcdmBox`, proved sound there and evaluated by the kernel in `Lemmas/LcdmBoxCheck` |
| C55–C59 | `dust/att_curves.py` | exp/rpow bounds, polynomial inequalities |
| C60,C61 | `dust/blackbody.py` | exp inequalities; unimodality of x³/(eˣ-1) |
| C62,C63 | `em_lines/equivalent_width.py` | least-squares uniqueness; linearity |
| C64–C66 | `data_loaders/load_emline_info.py`, `retrieve_fsps_data.py` | string/list induction |
| C67,C68 | `data_loaders/load_filter_data.py`, `load_ssp_data.py` | case analysis over an abstract file system |
| C69 | writer script + `load_ssp_templates` | HDF5 file as map name → dataset |
| C70 | `retrieve_fake_fsps_data.py` | pigeonhole (non-termination above 26³), progress below |
| C71 | `retrieve_fsps_data.py` | FSPS oracle |
| C72 | `load_filter_data.load_random_transmission_curve` | linspace + clip + gaussian bounds; law of the centre (`RandomDist`) |
| C73 | `cosmology/flat_wcdm.py` quadratures (`trapz` on a log grid) | monotone-integrand trapezoid error bound (`Lemmas/Quadrature`, `LcdmQuad`) against the true `∫` |
| C74 | `dust/blackbody.py` | Mathlib's `ζ(4)` and `∫ x³/(eˣ-1)`; change of variables for the wavelength form |
| C75, C76 | `data_loaders/load_filter_data.py`, `retrieve_fake_fsps_data.py` | linspace / clip algebra, RNG oracle |
| C77 | shipped line table `data_loaders/.../*.txt` transcribed as data | finite table: `decide`-style kernel evaluation over the *whole* table, lifted to the reader by a lemma |
| C78–C86 | extended floats: `XF.lean`, `Model/XFUtils`, `XFSed`, `XFPhot` | case analysis on the special values; `toReal` refinement to the real model |
| C87 | `metallicity/umzr.py:get_ran_*` with a splittable-key RNG oracle | bounds of the draws; joint law under iid uniform deviates (`RandomDist`); witness for the inadmissible draw |
| C88 | `metallicity/mzr.py:maiolino08_metallicity_evolution` | algebra |
| C89 | `utils.py:_get_linspace_time_tables` etc. | linspace algebra |
| C90–C94 | the real model | `ContDiff`/`Continuous` of triweights, interpolation (`Lemmas/InterpCont`), quadratures; jump witnesses |
| C95 | `flat_wcdm.age_at_z`, `lookback_to_z` for flat LCDM | closed form `arsinh` primitive (`Lemmas/AgeClosed`) plus the C73 quadrature bound |
| C97–C99 | rounding layer | relative-error calculus `Within` (closed under +, ×, ÷, sums of any association) and absolute-error calculus `Near` |
| C100–C105, C107–C109 | `Model/Gen.lean`, `Model/GenMore.lean` under `Rev.Rv` | `Traced` is preserved by every primitive (`Lemmas/Rev`), by interpolation, cumulative sums, triweights (`Lemmas/Gen*`); then composition |
| C106 | the same programs | nan propagation through back-propagators (`NanBack`) |
| C96 | `flat_wcdm` with `w0, wa ≠ -1, 0` | `Lemmas/W0wa`: monotone expansion rate, quadrature error vs. increment |
| C110 | import statements of all modules, flag `jax_enable_x64` | invariant over event histories (`ImpInv`); dependency closure of every module computed and checked by the kernel |

No property in the list was found to be inexpressible; parts that live in the runtime (float rounding, actual
I/O) are excluded as listed above and the corresponding MANIFEST notes say so.
| C111 | jitted bounding transformations as signature-keyed caches over a mutable dictionary | invariant over event histories (`Recorded`); caches are monotone (`bounded_kept`, `unbounded_kept`) |
| C112 | `calc_age_weights_from_sfh_table`, `mstar_obs` in machine arithmetic (`Model/RoundedSed.lean`) | error of the table of log masses, sensitivity of interpolation to its abscissae and values (`interp_perturb`), error of clipped birth times, cancellation in the differences bounded by the growth rate; numbers for float64 |
| C113 | `calc_lgmet_weights_from_lognormal_mdf`, `calc_lgmet_at_ssp_lgage_table`, `calc_lgmet_weights_from_lgmet_table` in machine arithmetic | error of bin edges, Lipschitz bound and rounding of the triweight CDF (`Lemmas/RoundMet`), errors of differences and of the normalisation in the sum norm |
| C114 | `calc_rest_sed_sfh_table_lognormal_mdf`, `calc_rest_sed_sfh_table_met_table` in machine arithmetic | sum-norm error of products, normalisation and weighted sums (`Lemmas/RoundJoint`), then numbers for float64 |
| C115 | the SED functions followed by `calc_rest_mag`, in machine arithmetic | C114, C25 (SED between the extreme SSPs), C99 with a perturbed spectrum, monotonicity of the band flux |
| C116 | `jnp.linalg.lstsq` by SVD with cutoff inside both equivalent-width kernels | existence of the SVD from Mathlib's spectral theorem; solver = minimum-norm solution unless a positive singular value is cut; Lagrange interpolation bounds the smallest singular value from below, the test vector `(λ-x0)²` from above |
| C117 | all of `flat_wcdm.py` in machine arithmetic; Python-level constants in binary64, then converted | calculus of multiplicative closeness `Close` (`Lemmas/Close`); the grid of the quadrature is itself rounded: summation by parts for decreasing integrands, spacing bound otherwise; then numbers for float32 and float64 |
| C118 | all of `photometry_kernels.py` in machine arithmetic | local error of interpolation inside a cell (contrast), sensitivity to the rounded redshifted grid (logarithmic slope, `Lemmas/RoundObs`), C117 for the distance modulus; a mixture of SSPs inherits the conditions, C114 for the SED; numbers for float32 and float64 |
| C119 | the SED pipeline over arrays with run-time shapes (shape layer) | Hoare-style rules per array operation (`Lemmas/Nd`), composed along the source text; results identified with the real layer |
| C120 | the same functions on arguments of any shape | broadcasting of shapes computed from the end; rank and length invariants of the intermediate arrays; the raising operation is located for each bad shape |
| C121 | `flat_wcdm.py` over arrays with run-time shapes | rows of `linspace` tables, `trapezoid` along the last axis of an array with arbitrary leading axes |
| C122 | `photometry_kernels.py`, `photpop.py` over arrays with run-time shapes | broadcasting of a stack of filters against one spectrum; nested `vmap` |
| C123 | `plot_mzr.py:make_mzr_comparison_plot` as a list of artists | enumeration of the ten curves and seven legend handles; equality of lists of curves |
| C124 | the same with pyplot's registry, the file system and `loadtxt` as state and oracles | case analysis on the exceptions; induction over the history of calls |
| C125 | blackbody spectra over an abstract float type, run under reverse mode in exact arithmetic and in the range layer | `Traced` composition; exact-value calculus with powers of ten (`IsT`), bounded calculus (`Bd`), absorption of nan and infinities (`Bad`) |
| C126 | `scripts/write_fsps_data_to_disk.py` as a list of commands on the output file, stopped anywhere | trace of commands; case analysis on the crash point; induction over histories of runs; composed with C69, C71 |
| C127 | `_jax_get_dt_array`, bin edges, age and metallicity weights, cumulative mass on integer or float arrays (`Model/IntGrid`: `zeros_like` keeps the dtype, `.at[].set` truncates) | truncation commutes with array updates; divisibility criterion; negation witness |
| C128 | the blackbody functions in machine arithmetic (`Model/RoundedDust`) | logarithmic error calculus `Close`; absolute errors in the exponent; Planck's law from the specification of C60 |
| C129 | the reddening curves and `_frac_transmission_from_k_lambda` in machine arithmetic (`Model/RoundedDust`) | absolute error calculus `NearE` (sizes of the terms of the polynomials), `Close` for power law, bump and exponential; range by monotonicity of rounding |
| C130 | the element-wise functions of all modules as expressions over arrays with run-time shapes (`Model/NdElem`) | a declarative broadcasting rule for any set of shapes; pairwise broadcasting of intermediate results obeys it (existence for subsets, union, uniqueness); composition of broadcast indices |
| C131 | the functions of `diffburst` as expressions over arrays with run-time shapes (`Model/NdBurst`); the full sum of `_zero_safe_normalize` over all axes | the element-wise calculus of C130 plus the sum over all positions; false for batches: the normalisation mixes bursts (exact value and witness) |
| C132 | `jnp.array` of nine arrays, `vmap` over rows, tuple unpacking (`Model/NdBurst`, `NdUmzr`) | element-wise calculus row by row; unequal shapes raise at `jnp.array` |
| C133 | `equivalent_width.py` with `lstsq` as parameter (`Model/EquivalentWidth`) | normal problem in unscaled coefficients, strict convexity with three points; the scaled system is literally the same under a stretch; telescoping bound for a step function |
| C134 | the same functions over floats with nan, inf, signed zero (`Model/XFEw`); `lstsq` assumed exact on finite input and nan on nan input | representation lemmas; propagation of nan through mask products |
| C135 | the sigmoid functions, mass-metallicity relations, bounded parameters, surviving and remnant mass operation by operation in the rounding layer (`Model/RoundedMzr`); `nn.sigmoid` has absolute error `v` | count of roundings times size (`NearE`), Lipschitz bound of the sigmoid; numbers for double precision |
| C136 | the same; for the bounds and the saturation `nn.sigmoid` is XLA's `1/(1+exp(-x))` and rounding is to nearest with `p` bits | monotonicity of rounding; conditioning of the inverse sigmoid by `2 + e^t + e^-t` |
| C137 | rounding layer: `RoundedBurst`: triweight kernel, burst weights, mixture, operation by operation, sum in any order | kernel is Lipschitz across its edge (the branch may flip by rounding); error of centre and width; normalisation lemma of C115 |
| C138 | the same with round-to-nearest `p` bits and XLA's logistic; inverse functions | monotonicity of rounding, `9 - lo` exact; sums of non-negative machine numbers dominate every summand; C136 for the round trip |
| C139 | units from IAU definitions (`Units`), received flux density from `L/(4πd²)`, AB magnitude | real arithmetic with 20-digit bounds on `π`; the difference of magnitudes is `2.5 log10` of a constant ratio, bounded by `log(1+x) ≤ x` |
| C140 | the SED pipeline on tables `S ∘ t` of a continuous history; specification by integrals (`Sfh.mass`, `share`, `sed`) | cell-wise modulus of continuity for the trapezoid rule; monotone interpolation keeps the mass between neighbouring table values; filter of refining tables for products and sums |
| C141 | photometry kernels on grids of continuous spectra and filters; specification by integrals (`Band.flux`, `Band.mag`) | same modulus argument, interpolation error inside the trapezoid sum; linearity of the flux for the composition with C140 |
| C142 | cumulative mass, age weights and SED of sums and multiples of histories | affinity by induction over the table; interpolation in logs is monotone and lies between the masses at the ends of a gap (the same gap for all histories); explicit two-entry witness for the dimming |
| C143 | spectra times transmitted fraction, then the photometry kernels | flux linear, monotone and local; extremes of the extinction over the samples in the band |
| C144 | metallicity weights as functions of metallicity and scatter | the kernel's likelihood ratios are monotone, so cumulated weights are; summation by parts for spectra; moments by explicit antiderivatives |
| C145 | age weights and SED as functions of the observation time | shares up to an edge telescope to the mass formed since; monotone mass history; summation by parts |
| C146 | burst weights as functions of peak, end and mass fraction | monotone likelihood ratios of the sampled kernel; pairs inside and outside a set of ages |
| C147 | pairs of tables of the same piecewise straight curve, rescaled wavelengths, padded filters, two redshifts | interpolation recovers the curve on each cell; trapezoids are exact integrals; cells of zero transmission vanish; monotone interpolation and distances |
| C148 | `equivalent_width.py` over arrays with run-time shapes (`Model/NdEw.lean`), `lstsq` applied per column | broadcasting lemmas; minimum-norm solution of a zero right-hand side is zero; case analysis of the broadcast of flux and weights |
| C149 | precomputed magnitude tables (C46 layer), both SED functions, the dust screen of C143, `get_filter_effective_wavelength` | linearity of the band flux in the spectrum; `10^(-0.4 m)` inverts the magnitude; monotonicity of the mixture in the parts; the effective wavelength is a weighted mean over the band |
| C150 | `differential_comoving_volume_at_z`, `powerlaw_pdf/rvs`, the unbounding transforms of bursts and of the mass-metallicity relation over the AD layer (`Model/GenInverse.lean`) | composition of the `Traced` rules; entries of an array that are read out pass a zero cotangent to all other entries, which is harmless unless one of them computes 0/0 |
| C151 | `_ew_kernel`, `_continuum_line_decomp_kern` over the AD layer (`Model/GenEw.lean`), wavelengths constant, JAX's `lstsq` with an arbitrary singular value decomposition of the constant matrix | composition of the `Traced` rules with the window weights frozen (they are locally constant); consequences from linearity in the flux by directional derivatives; 0·inf = nan for a vanishing continuum |
| C152 | `get_filter_effective_wavelength`, `powerlaw_pdf`, `powerlaw_rvs` in the rounding layer (`Model/RoundedMisc.lean`) | log-scale error calculus (`Close`) for quotients of trapezoids and powers; explicit forward error for the cancelling sum `a^g + (b^g - a^g) r`, bounded by 3 terms for `g > 0` and by `3 (b/a)^(-g)` for `g < 0`; exact evaluation of a single-precision case (`Props/RoundMisc.lean`) |
| C153 | `cumulative_mstar_formed`, `calc_age_weights_from_sfh_table`, `calc_bursty_age_weights`, both SED functions, `calc_obs_mag`, `calc_rest_mag` | between table times the mass formed is a geometric interpolation; on each piece `hi²/lo` times one mass minus the other is monotone (derivative of `A exp(θ log(B/A))`, logarithmic mean), pieces glued with `MonotoneOn.union`; weights as quotients, spectra as mixtures, magnitudes by monotonicity and Pogson scaling (`Props/Perturb.lean`) |
| C154 | `flat_wcdm.py` distances, lookback time, age; `calc_obs_mag` | comparison of the integrands at the points of the same table; `E²` is affine in the matter density and in the dark energy density, whose logarithm is linear in w0, wa (`Props/CosmoSens.lean`) |
| C155 | `calc_lgmet_weights_from_lognormal_mdf`, both SED functions, magnitudes, `get_filter_effective_wavelength` | total variation between shifted kernels (they cross once, at the midpoint; Lipschitz constant of the CDF) and between kernels of different widths (pointwise minorisation); means of quantities within a ratio R under nearby distributions; monotonicity of the filter integrals (`Props/MetSens.lean`) |
| C156 | both SED functions | bin by bin: weights are integrals of the density over the bins (C04), births in a bin have ages in the bin, so sums and integrals differ by the change of the library within a bin; stars outside the grid by splitting the integral; uniform continuity for the limit; composed with C140 for the tables. `Props/GridRefine.lean` |
| C157 | both SED functions, `calc_obs_mag`, `calc_rest_mag` | C156 uniformly in wavelength (library uniformly continuous), continuity of the exact spectrum, flux through the band Lipschitz in the spectrum, continuity of the logarithm at nonzero flux; tables and wavelength grids by C140/C141 limits, now for both SED functions. `Props/ForwardLimit.lean` |
| C158 | bursts on refined age grids | samples times spacing are a trapezoid sum as the kernel vanishes at both ends of the grid; modulus of continuity for kernel and kernel·g; ratio estimate. Negative: explicit grid of spacing d below and d/2 above the peak, pairing of samples (C158_uneven) |
| C159 | forward-mode tangents recorded beside back-propagation in `Rv` (`tan`); `jvp` | tangents are part of `Traced`, hence proved with every gradient theorem; forward-only calculus `Fwd` where reverse mode fails; zero tangents of the untaken branch of `where` |
| C160 | nested AD (`Verif/Nested.lean`): the generic programs of `Model/Gen*.lean` on numbers recorded repeatedly, by reverse or forward mode, over numbers recorded by the outer levels; `DerivsOk` by recursion on the nesting | a class `Tracer` of number types with the rules of all primitives; XF is one, and `RvO α`, `Fw α` are if `α` is; each function once, for every tracer; `var` and `DerivsOk` by induction on the nesting; symmetry from Mathlib's second_derivative_symmetric |
| C161 | the real layer of photometry, SED and weights; `Seen` says which pixels the filter samples | linearity in the pixel, hat functions of the interpolation positive exactly between the neighbours, positivity of trapz; strictness of the kernel CDF inside its support; strict monotonicity of the mass history; telescoping weights |
| C162 | the composed programs `populationMag` and `historyMag`, spelled out with the functions of the real layer, and the same programs run on the AD layer | composition of the `Traced` lemmas of C101-C109; positivity of the summed burst weights gives a positive flux; forward mode by C159 |
| C163 | the generic programs of `Model/Gen.lean` (photometry kernels, flat wCDM) run on the range layer (`Verif/Range.lean`: every operation is exact, results above the largest number become infinite, results below the smallest normal number zero) | interval arithmetic that survives flushing (`Lemmas/RangePhot.lean`: a float is `Btn lo hi`), sums and trapezoids by induction, one cell bounds the integral below; the underflow by evaluating every cell to 0 |
| C164 | the generic galaxy model of `Model/Gen.lean` run on the range layer (`Verif/Range.lean`) | every intermediate as an exact real followed by a flush `fl` (`Lemmas/RangeVal.lean`: monotone, within the smallest normal number), grids (`RangeGrid`), masses by induction over the table (`RangeMass`), birth masses (`RangeAge`), telescoping and normalisation (`RangeWeights`, `RangeMet`), then the spectrum between the population spectra and the magnitudes through C163's intervals |
| C165 | the generic components (`Model/GenMore.lean`, bursts in `Model/Gen.lean`) run on the range layer, against the exact models (`Umzr`, `Mzr`, `RemnantMass`, `SurvivingMstar`, `Dust`, `Diffburst`) | a calculus of absolute errors (`Lemmas/RangeNear.lean`: each operation is exact then flushed; sums, products, quotients with denominators bounded below, clamps, the 1-Lipschitz logistic function, powers of ten), the 2-Lipschitz triweight kernel with its clipped support, and the exact bounds of the sigmoids for the unbounded burst parameters |
| C166 | `trapz`, `cumulative_mstar_formed`, `interp`, `obs_flux_ssp`, magnitudes, age weights, SED, against `Curved M` (second derivative at most M) and the exact integrals `Sfh.massFrom`, `Band.flux`, `Band.mag` | convexity of `f ± M x²/2` on each cell; chords; the logarithm of the mass formed has a bounded second derivative in log time; constants chosen before the guard of `jnp.interp`, so that the statement is not emptied by it; `Props/HistoryMet.lean`: C166_interp on the log-time axis for a metallicity history, then the SED with both tables |
| C167 | `massFormed` (interpolation of `log10` of `cumulative_mstar_formed` in `log10` of time), `calc_age_weights_from_sfh_table`; `tableMass`, `growth` | on a cell the mass is `M_k (tau/t_k)^p`; derivative, concavity / convexity of `log`; telescoping over cells; quotient of differences for the weights |
| C168 | `calc_obs_mag`, `calc_rest_mag` of `calc_rest_sed_sfh_table_lognormal_mdf`; `Sfh.sedFrom`, `massInRange` | monotonicity and scaling of the flux (C42, C39) sandwich the magnitude; C166_sed per wavelength with the minimum of the exact SED; C167 Lipschitz bounds, each SSP spectrum at most `R` times the average; `Props/HistoryMet.lean`: the same with `calc_rest_sed_sfh_table_met_table` (`Sfh.sedHistories`), whose SED is that of one metallicity and age-dependent light (`met_as_mix`), the light of each age Lipschitz in the metallicity (C155), the metallicity Lipschitz in the log of the birth time; `Props/HistoryBurst.lean`: `calc_bursty_age_weights` of them, a bursty galaxy being a smooth one whose SSPs contain the burst's light (`bursty_as_smooth`); `Props/HistoryCosmo.lean`: the observation time is `age_at_z` of the redshift (C49 scaling with `h`; C154 for the distance; cases with the WMAP5 and FSPS cosmologies at redshift 1/2); textbook age at every redshift from C95 (`C95_age_at_redshift`) |
