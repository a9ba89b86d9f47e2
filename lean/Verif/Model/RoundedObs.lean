import Verif.Model.RoundedCosmo
import Verif.Model.Photometry

/-! Magnitudes (`/repo/dsps/photometry/photometry_kernels.py`) in machine arithmetic, from the spectrum to the result.  Conventions as in
`Verif/Model/RoundedCosmo.lean`: `P` is the arithmetic of Python's floats, `A` that of JAX's dtype, `v` the accuracy of `log10`, `d` the longest
chain of additions in the sums over the filter, `dc` the one in the cosmological quadrature. -/
namespace Dsps.Rounded
open Jnp Fl

variable (P A : Arith) (v : ℝ) {n m : ℕ}

/-- photometry_kernels.py:143-147 `_flux_ab0_at_10pc`; the literal `AB0` is a Python float -/
noncomputable def flux_ab0 (d : ℕ) (wave_filter trans_filter : Fin (m + 1) → ℝ) : Set ℝ :=
  {out | ∃ ab0 ∈ lit P A Photometry.AB0, out ∈ filter_flux A d wave_filter trans_filter fun _ => ab0}

/-- photometry_kernels.py:125-132 `_obs_flux_ssp` -/
noncomputable def obs_flux_ssp [Dtype] (d : ℕ) (wave_spec_rest lum_spec : Fin (n + 2) → ℝ) (wave_filter trans_filter : Fin (m + 1) → ℝ) (z : ℝ) :
    Set ℝ :=
  {out | ∃ zp1 ∈ A.add 1 z, ∃ wave_obs ∈ vec fun j => A.mul (wave_spec_rest j) zp1,
    ∃ lum_zshift_phot ∈ vec fun i => interp0 A (wave_filter i) wave_obs lum_spec, out ∈ filter_flux A d wave_filter trans_filter lum_zshift_phot}

/-- photometry_kernels.py:135-140 `_rest_flux_ssp` -/
noncomputable def rest_flux_ssp [Dtype] (d : ℕ) (wave_spec_rest lum_spec : Fin (n + 2) → ℝ) (wave_filter trans_filter : Fin (m + 1) → ℝ) : Set ℝ :=
  {out | ∃ lum_phot ∈ vec fun i => interp0 A (wave_filter i) wave_spec_rest lum_spec, out ∈ filter_flux A d wave_filter trans_filter lum_phot}

/-- photometry_kernels.py:68-72 `_calc_obs_mag_no_dimming` -/
noncomputable def calc_obs_mag_no_dimming [Dtype] (d : ℕ) (wave_spec_rest lum_spec : Fin (n + 2) → ℝ) (wave_filter trans_filter : Fin (m + 1) → ℝ)
    (z : ℝ) : Set ℝ :=
  {out | ∃ flux_source ∈ obs_flux_ssp A d wave_spec_rest lum_spec wave_filter trans_filter z, ∃ ab0 ∈ flux_ab0 P A d wave_filter trans_filter,
    ∃ q ∈ A.div flux_source ab0, ∃ l ∈ log10 v q, out ∈ A.mul (-2.5) l}

/-- photometry_kernels.py:62-65 `_cosmological_dimming` -/
noncomputable def cosmological_dimming (dc : ℕ) (z Om0 w0 wa h : ℝ) : Set ℝ :=
  {out | ∃ dmod ∈ distance_modulus_to_z P A v dc z Om0 w0 wa h, ∃ zp1 ∈ A.add 1 z, ∃ l ∈ log10 v zp1, ∃ t ∈ A.mul 2.5 l, out ∈ A.sub dmod t}

/-- photometry_kernels.py:56-59 `_cosmological_dimming_from_table` -/
noncomputable def cosmological_dimming_from_table [Dtype] (z : ℝ) (z_table distance_modulus_table : Fin (n + 2) → ℝ) : Set ℝ :=
  {out | ∃ dmod ∈ interp A z z_table distance_modulus_table, ∃ zp1 ∈ A.add 1 z, ∃ l ∈ log10 v zp1, ∃ t ∈ A.mul 2.5 l, out ∈ A.sub dmod t}

/-- photometry_kernels.py:15-53 `calc_obs_mag` (lines 46-49 repeat `_calc_obs_mag_no_dimming`) -/
noncomputable def calc_obs_mag [Dtype] (d dc : ℕ) (wave_spec_rest lum_spec : Fin (n + 2) → ℝ) (wave_filter trans_filter : Fin (m + 1) → ℝ)
    (redshift Om0 w0 wa h : ℝ) : Set ℝ :=
  {out | ∃ mag_no_dimming ∈ calc_obs_mag_no_dimming P A v d wave_spec_rest lum_spec wave_filter trans_filter redshift,
    ∃ dimming ∈ cosmological_dimming P A v dc redshift Om0 w0 wa h, out ∈ A.add mag_no_dimming dimming}

/-- photometry_kernels.py:99-122 `calc_rest_flux` -/
noncomputable def calc_rest_flux' [Dtype] (d : ℕ) (wave_spec_rest lum_spec : Fin (n + 2) → ℝ) (wave_filter trans_filter : Fin (m + 1) → ℝ) : Set ℝ :=
  {out | ∃ flux_source ∈ rest_flux_ssp A d wave_spec_rest lum_spec wave_filter trans_filter, ∃ ab0 ∈ flux_ab0 P A d wave_filter trans_filter,
    out ∈ A.div flux_source ab0}

/-- photometry_kernels.py:75-96 `calc_rest_mag` -/
noncomputable def calc_rest_mag' [Dtype] (d : ℕ) (wave_spec_rest lum_spec : Fin (n + 2) → ℝ) (wave_filter trans_filter : Fin (m + 1) → ℝ) : Set ℝ :=
  {out | ∃ rest_flux ∈ calc_rest_flux' P A d wave_spec_rest lum_spec wave_filter trans_filter, ∃ l ∈ log10 v rest_flux, out ∈ A.mul (-2.5) l}

end Dsps.Rounded
