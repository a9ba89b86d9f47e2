/- Second model of dsps/cosmology/flat_wcdm.py, photometry/photometry_kernels.py, dust/blackbody.py and dust/utils.py with the IEEE
special values of `Verif/XF.lean`: used for statements about nan and inf. -/
import Verif.Model.XFSed
import Verif.Model.Photometry
import Verif.Model.Blackbody
import Verif.Model.Dust

namespace Dsps.XFPhot
open Dsps.Constants Dsps.XFSed
open Classical

variable {n m : ℕ}

/-- `jnp.sqrt` -/
noncomputable def sqrt : XF → XF
  | .nan => .nan
  | .inf false => .inf false
  | .inf true => .nan
  | .nzero => .nzero
  | .fin x => if x < 0 then .nan else .fin (Real.sqrt x)

/-- `jnp.linspace(start, stop, n+2)`, as in `Jnp.linspace` -/
noncomputable def linspace (start stop : XF) (n : ℕ) : Fin (n + 2) → XF := fun i =>
  if i = Fin.last (n + 1) then stop
  else start * (1 - XF.fin (i : ℝ) / XF.fin ((n : ℝ) + 1)) + stop * (XF.fin (i : ℝ) / XF.fin ((n : ℝ) + 1))

/-! ### cosmology -/

/-- flat_wcdm.py:48-52 `_rho_de_z` -/
noncomputable def rho_de_z (z w0 wa : XF) : XF :=
  let a := 1.0 / (1.0 + z)
  let de_z := XFUtils.pow a (-3.0 * (1.0 + w0 + wa)) * XF.exp (-3.0 * wa * (1.0 - a))
  de_z

/-- flat_wcdm.py:55-61 `_Ez` -/
noncomputable def Ez (z Om0 w0 wa : XF) : XF :=
  let zp1 := 1.0 + z
  let Ode0 := 1.0 - Om0
  let t := Om0 * zp1 ^ (3 : ℕ) + Ode0 * rho_de_z z w0 wa
  let E := sqrt t
  E

/-- flat_wcdm.py:64-66 `_integrand_oneOverEz` -/
noncomputable def integrand_oneOverEz (z Om0 w0 wa : XF) : XF := 1 / Ez z Om0 w0 wa

/-- flat_wcdm.py:74-100 `comoving_distance_to_z` -/
noncomputable def comoving_distance_to_z (redshift Om0 w0 wa h : XF) : XF :=
  let z_table := linspace 0 redshift 254
  let integrand := fun i => integrand_oneOverEz (z_table i) Om0 w0 wa
  trapz z_table integrand * XF.fin FlatWcdm.C_SPEED * 1e-5 / h

/-- flat_wcdm.py:107-129 `luminosity_distance_to_z` -/
noncomputable def luminosity_distance_to_z (redshift Om0 w0 wa h : XF) : XF :=
  comoving_distance_to_z redshift Om0 w0 wa h * (1 + redshift)

/-- flat_wcdm.py:157-182 `distance_modulus_to_z` -/
noncomputable def distance_modulus_to_z (redshift Om0 w0 wa h : XF) : XF :=
  let d_lum := luminosity_distance_to_z redshift Om0 w0 wa h
  let mu := 5.0 * XF.log10 (d_lum * 1e5)
  mu

/-! ### photometry -/

/-- photometry_kernels.py:125-132 `_obs_flux_ssp` -/
noncomputable def obs_flux_ssp [Jnp.Dtype] (wave_spec_rest lum_spec : Fin (n + 2) → XF)
    (wave_filter trans_filter : Fin (m + 1) → XF) (z : XF) : XF :=
  let lum_zshift_phot := fun i => XFSed.interpLR (wave_filter i) (fun j => wave_spec_rest j * (1 + z)) lum_spec 0 0
  let integrand := fun i => trans_filter i * lum_zshift_phot i / wave_filter i
  let lum_filter := trapz wave_filter integrand
  lum_filter

/-- photometry_kernels.py:135-140 `_rest_flux_ssp` -/
noncomputable def rest_flux_ssp [Jnp.Dtype] (wave_spec_rest lum_spec : Fin (n + 2) → XF)
    (wave_filter trans_filter : Fin (m + 1) → XF) : XF :=
  let lum_phot := fun i => XFSed.interpLR (wave_filter i) wave_spec_rest lum_spec 0 0
  let integrand := fun i => trans_filter i * lum_phot i / wave_filter i
  let lum_filter := trapz wave_filter integrand
  lum_filter

/-- photometry_kernels.py:143-147 `_flux_ab0_at_10pc` -/
noncomputable def flux_ab0_at_10pc (wave_filter trans_filter : Fin (m + 1) → XF) : XF :=
  let integrand := fun i => trans_filter i * XF.fin Photometry.AB0 / wave_filter i
  let lum_ab0_filter := trapz wave_filter integrand
  lum_ab0_filter

/-- photometry_kernels.py:62-65 `_cosmological_dimming` -/
noncomputable def cosmological_dimming (z Om0 w0 wa h : XF) : XF :=
  let dmod := distance_modulus_to_z z Om0 w0 wa h
  dmod - 2.5 * XF.log10 (1 + z)

/-- photometry_kernels.py:15-53 `calc_obs_mag` -/
noncomputable def calc_obs_mag [Jnp.Dtype] (wave_spec_rest lum_spec : Fin (n + 2) → XF)
    (wave_filter trans_filter : Fin (m + 1) → XF) (redshift Om0 w0 wa h : XF) : XF :=
  let flux_source := obs_flux_ssp wave_spec_rest lum_spec wave_filter trans_filter redshift
  let flux_ab0 := flux_ab0_at_10pc wave_filter trans_filter
  let mag_no_dimming := -2.5 * XF.log10 (flux_source / flux_ab0)
  let dimming := cosmological_dimming redshift Om0 w0 wa h
  let obs_mag := mag_no_dimming + dimming
  obs_mag

/-- photometry_kernels.py:99-122 `calc_rest_flux` -/
noncomputable def calc_rest_flux [Jnp.Dtype] (wave_spec_rest lum_spec : Fin (n + 2) → XF)
    (wave_filter trans_filter : Fin (m + 1) → XF) : XF :=
  let flux_source := rest_flux_ssp wave_spec_rest lum_spec wave_filter trans_filter
  let flux_ab0 := flux_ab0_at_10pc wave_filter trans_filter
  let rest_flux := flux_source / flux_ab0
  rest_flux

/-- photometry_kernels.py:75-96 `calc_rest_mag` -/
noncomputable def calc_rest_mag [Jnp.Dtype] (wave_spec_rest lum_spec : Fin (n + 2) → XF)
    (wave_filter trans_filter : Fin (m + 1) → XF) : XF :=
  let rest_flux := calc_rest_flux wave_spec_rest lum_spec wave_filter trans_filter
  let rest_mag := -2.5 * XF.log10 rest_flux
  rest_mag

/-! ### dust -/

/-- dust/utils.py:8-30 `get_filter_effective_wavelength` -/
noncomputable def get_filter_effective_wavelength (filter_wave filter_trans : Fin (n + 1) → XF) (redshift : XF) : XF :=
  let norm := trapz filter_wave filter_trans
  let lambda_eff_rest := trapz filter_wave (fun i => filter_trans i * filter_wave i) / norm
  let lambda_eff := lambda_eff_rest / (1 + redshift)
  lambda_eff

/-- blackbody.py:74-80 `_freq_density_denom` -/
noncomputable def freq_density_denom (freq_hz temp_kelvin : XF) : XF :=
  let hnu := XF.fin Blackbody.H_PLANCK * freq_hz
  let kt := XF.fin Blackbody.K_BOLTZ * temp_kelvin
  let x := hnu / kt
  let denom := 1 / (XF.exp x - 1)
  denom

/-- blackbody.py:83-88 `_jax_bb_freq_density_exparg` -/
noncomputable def jax_bb_freq_density_exparg (freq_hz : XF) : XF :=
  let lg_term1 := XF.fin Blackbody.LG2 + XF.fin Blackbody.LGH - 2 * XF.fin Blackbody.LGC
  let lg_term2 := 3 * XF.log freq_hz
  let exparg := lg_term1 + lg_term2
  exparg

/-- blackbody.py:91-96 `_blackbody_freq_density_si` -/
noncomputable def blackbody_freq_density_si (freq_hz temp_kelvin : XF) : XF :=
  let exparg := jax_bb_freq_density_exparg freq_hz
  let denom := freq_density_denom freq_hz temp_kelvin
  denom * XF.exp exparg

/-- blackbody.py:25-45 `blackbody_freq_density` -/
noncomputable def blackbody_freq_density (freq_hz temp_kelvin : XF) : XF :=
  let bb_si := blackbody_freq_density_si freq_hz temp_kelvin
  let bb_lsun_per_hz := bb_si / XF.fin Blackbody.WATTS_PER_LSUN
  bb_lsun_per_hz

/-- blackbody.py:113-119 `_wave_density_denom` -/
noncomputable def wave_density_denom (wave_meters temp_kelvin : XF) : XF :=
  let hc := XF.fin Blackbody.H_PLANCK * XF.fin Blackbody.C_SPEED
  let kt := XF.fin Blackbody.K_BOLTZ * temp_kelvin
  let x := hc / kt / wave_meters
  let denom := 1 / (XF.exp x - 1)
  denom

/-- blackbody.py:122-130 `_blackbody_wave_density_si` -/
noncomputable def blackbody_wave_density_si (wave_m temp_kelvin : XF) : XF :=
  let denom_factor := wave_density_denom wave_m temp_kelvin
  let lg_term1 := XF.fin Blackbody.LG2 + XF.fin Blackbody.LGH + 2 * XF.fin Blackbody.LGC
  let lg_term2 := 5 * XF.log wave_m
  let exparg := lg_term1 - lg_term2
  let wave_factor := XF.exp exparg
  wave_factor * denom_factor

/-- blackbody.py:48-71 `blackbody_wave_density` -/
noncomputable def blackbody_wave_density (wave_aa temp_kelvin : XF) : XF :=
  let wave_m := wave_aa / 1e10
  let bb_si := blackbody_wave_density_si wave_m temp_kelvin
  let bb_lsun_per_m := bb_si / XF.fin Blackbody.WATTS_PER_LSUN
  let m_per_aa := 1e-10
  let bb_lsun_per_aa := bb_lsun_per_m * m_per_aa
  bb_lsun_per_aa

end Dsps.XFPhot
