import Verif.Model.NdCosmo
import Verif.Model.Photometry

/-! `/repo/dsps/photometry/photometry_kernels.py` and `photpop.py` on arrays of arbitrary shape, statement by statement, in
the exception monad.  The cosmological parameters are scalars. -/
namespace Dsps.NdPhot
open Nd Py Dsps.NdCosmo

variable [Jnp.Dtype] [Edge]

/-- photometry_kernels.py:125-132 `_obs_flux_ssp` -/
noncomputable def obs_flux_ssp (wave_spec_rest lum_spec wave_filter trans_filter z : Arr ℝ) : Except PyErr (Arr ℝ) := do
  let lum_zshift_phot ← interpLR wave_filter (← map2 (· * ·) wave_spec_rest (map (1 + ·) z)) lum_spec 0 0
  let integrand ← map2 (· / ·) (← map2 (· * ·) trans_filter lum_zshift_phot) wave_filter
  trapz wave_filter integrand

/-- photometry_kernels.py:135-140 `_rest_flux_ssp` -/
noncomputable def rest_flux_ssp (wave_spec_rest lum_spec wave_filter trans_filter : Arr ℝ) : Except PyErr (Arr ℝ) := do
  let lum_phot ← interpLR wave_filter wave_spec_rest lum_spec 0 0
  let integrand ← map2 (· / ·) (← map2 (· * ·) trans_filter lum_phot) wave_filter
  trapz wave_filter integrand

/-- photometry_kernels.py:143-147 `_flux_ab0_at_10pc` -/
noncomputable def flux_ab0_at_10pc (wave_filter trans_filter : Arr ℝ) : Except PyErr (Arr ℝ) := do
  let integrand ← map2 (· / ·) (map (· * Photometry.AB0) trans_filter) wave_filter
  trapz wave_filter integrand

/-- photometry_kernels.py:62-65 `_cosmological_dimming` -/
noncomputable def cosmological_dimming (z : Arr ℝ) (Om0 w0 wa h : ℝ) : Except PyErr (Arr ℝ) := do
  let dmod ← distance_modulus_to_z z Om0 w0 wa h
  map2 (· - ·) dmod (map (fun z => 2.5 * Jnp.log10 (1 + z)) z)

/-- photometry_kernels.py:68-72 `_calc_obs_mag_no_dimming` -/
noncomputable def calc_obs_mag_no_dimming (wave_spec_rest lum_spec wave_filter trans_filter z : Arr ℝ) :
    Except PyErr (Arr ℝ) := do
  let flux_source ← obs_flux_ssp wave_spec_rest lum_spec wave_filter trans_filter z
  let flux_ab0 ← flux_ab0_at_10pc wave_filter trans_filter
  return map (fun x => -2.5 * Jnp.log10 x) (← map2 (· / ·) flux_source flux_ab0)

/-- photometry_kernels.py:15-53 `calc_obs_mag` -/
noncomputable def calc_obs_mag (wave_spec_rest lum_spec wave_filter trans_filter redshift : Arr ℝ) (Om0 w0 wa h : ℝ) :
    Except PyErr (Arr ℝ) := do
  let flux_source ← obs_flux_ssp wave_spec_rest lum_spec wave_filter trans_filter redshift
  let flux_ab0 ← flux_ab0_at_10pc wave_filter trans_filter
  let mag_no_dimming := map (fun x => -2.5 * Jnp.log10 x) (← map2 (· / ·) flux_source flux_ab0)
  let dimming ← cosmological_dimming redshift Om0 w0 wa h
  map2 (· + ·) mag_no_dimming dimming

/-- photometry_kernels.py:99-122 `calc_rest_flux` -/
noncomputable def calc_rest_flux (wave_spec_rest lum_spec wave_filter trans_filter : Arr ℝ) : Except PyErr (Arr ℝ) := do
  let flux_source ← rest_flux_ssp wave_spec_rest lum_spec wave_filter trans_filter
  let flux_ab0 ← flux_ab0_at_10pc wave_filter trans_filter
  map2 (· / ·) flux_source flux_ab0

/-- photometry_kernels.py:75-96 `calc_rest_mag` -/
noncomputable def calc_rest_mag (wave_spec_rest lum_spec wave_filter trans_filter : Arr ℝ) : Except PyErr (Arr ℝ) := do
  let rest_flux ← calc_rest_flux wave_spec_rest lum_spec wave_filter trans_filter
  return map (fun x => -2.5 * Jnp.log10 x) rest_flux

/-- photpop.py:11 `_calc_obs_mag_vmap_f` -/
noncomputable def calc_obs_mag_vmap_f (wave lum filter_waves filter_trans z : Arr ℝ) (Om0 w0 wa h : ℝ) :
    Except PyErr (Arr ℝ) :=
  vmapTwo (fun fw ft => calc_obs_mag wave lum fw ft z Om0 w0 wa h) filter_waves filter_trans

/-- photpop.py:12-14 `_calc_obs_mag_vmap_f_ssp` -/
noncomputable def calc_obs_mag_vmap_f_ssp (wave lum filter_waves filter_trans z : Arr ℝ) (Om0 w0 wa h : ℝ) :
    Except PyErr (Arr ℝ) :=
  vmap (vmap fun l => calc_obs_mag_vmap_f wave l filter_waves filter_trans z Om0 w0 wa h) lum

/-- photpop.py:15 `_calc_obs_mag_vmap_f_ssp_z` and photpop.py:26-77 `precompute_ssp_obsmags_on_z_table` -/
noncomputable def precompute_ssp_obsmags_on_z_table (ssp_wave ssp_fluxes filter_waves filter_trans z_table : Arr ℝ)
    (Om0 w0 wa h : ℝ) : Except PyErr (Arr ℝ) :=
  vmap (fun z => calc_obs_mag_vmap_f_ssp ssp_wave ssp_fluxes filter_waves filter_trans z Om0 w0 wa h) z_table

/-- photpop.py:80-115 `precompute_ssp_restmags` with `_calc_rest_mag_vmap_f`, `_calc_rest_mag_vmap_f_ssp` -/
noncomputable def precompute_ssp_restmags (ssp_wave ssp_fluxes filter_waves filter_trans : Arr ℝ) : Except PyErr (Arr ℝ) :=
  vmap (vmap fun l => vmapTwo (fun fw ft => calc_rest_mag ssp_wave l fw ft) filter_waves filter_trans) ssp_fluxes

/-- photpop.py:18-23, 118-149 `precompute_ssp_restmags_z_kcorrect` with `_calc_obs_mag_no_dimming_f(_ssp)` -/
noncomputable def precompute_ssp_restmags_z_kcorrect (ssp_wave ssp_fluxes filter_waves filter_trans z_kcorrect : Arr ℝ) :
    Except PyErr (Arr ℝ) :=
  vmap (vmap fun l => vmapTwo (fun fw ft => calc_obs_mag_no_dimming ssp_wave l fw ft z_kcorrect)
    filter_waves filter_trans) ssp_fluxes

end Dsps.NdPhot
