import Verif.Nd
import Verif.Model.FlatWcdm

/-! `/repo/dsps/cosmology/flat_wcdm.py` on redshift arrays of arbitrary shape, statement by statement, in the exception
monad.  The cosmological parameters are scalars; `_Ez`, `_hubble_time` and `_Om_at_z` combine the redshift array with
scalars only, hence act elementwise. -/
namespace Dsps.NdCosmo
open Nd Py

/-- flat_wcdm.py:55-61 `_Ez` (elementwise) -/
noncomputable def Ez (z : Arr ℝ) (Om0 w0 wa : ℝ) : Arr ℝ := map (fun z => FlatWcdm.Ez z Om0 w0 wa) z

/-- utils.py:278-293 `trapz` -/
noncomputable def trapz (xarr yarr : Arr ℝ) : Except PyErr (Arr ℝ) := trapezoid yarr xarr

/-- flat_wcdm.py:74-100 `comoving_distance_to_z` -/
noncomputable def comoving_distance_to_z (redshift : Arr ℝ) (Om0 w0 wa h : ℝ) : Except PyErr (Arr ℝ) := do
  let z_table := linspace 0 redshift 254
  let integrand := map (1 / ·) (Ez z_table Om0 w0 wa)
  let d ← trapz z_table integrand
  return map (fun d => d * FlatWcdm.C_SPEED * 1e-5 / h) d

/-- flat_wcdm.py:107-129 `luminosity_distance_to_z` -/
noncomputable def luminosity_distance_to_z (redshift : Arr ℝ) (Om0 w0 wa h : ℝ) : Except PyErr (Arr ℝ) := do
  map2 (· * ·) (← comoving_distance_to_z redshift Om0 w0 wa h) (map (1 + ·) redshift)

/-- flat_wcdm.py:132-154 `angular_diameter_distance_to_z` -/
noncomputable def angular_diameter_distance_to_z (redshift : Arr ℝ) (Om0 w0 wa h : ℝ) : Except PyErr (Arr ℝ) := do
  map2 (· / ·) (← comoving_distance_to_z redshift Om0 w0 wa h) (map (1 + ·) redshift)

/-- flat_wcdm.py:157-182 `distance_modulus_to_z` -/
noncomputable def distance_modulus_to_z (redshift : Arr ℝ) (Om0 w0 wa h : ℝ) : Except PyErr (Arr ℝ) := do
  let d_lum ← luminosity_distance_to_z redshift Om0 w0 wa h
  return map (fun d => 5.0 * Jnp.log10 (d * 1e5)) d_lum

/-- flat_wcdm.py:185-189 `_hubble_time` (elementwise) -/
noncomputable def hubble_time (z : Arr ℝ) (Om0 w0 wa h : ℝ) : Arr ℝ :=
  map (fun E0 => 1e-16 * FlatWcdm.MPC / FlatWcdm.YEAR / h / E0) (Ez z Om0 w0 wa)

/-- flat_wcdm.py:192-218 `lookback_to_z` -/
noncomputable def lookback_to_z (redshift : Arr ℝ) (Om0 w0 wa h : ℝ) : Except PyErr (Arr ℝ) := do
  let z_table := linspace 0 redshift 510
  let integrand ← map2 (· / ·) (map (1 / ·) (Ez z_table Om0 w0 wa)) (map (1 + ·) z_table)
  let res ← trapz z_table integrand
  let th := hubble_time (scal 0.0) Om0 w0 wa h
  map2 (· * ·) th res

/-- flat_wcdm.py:248-252 `_age_at_z_kern` -/
noncomputable def age_at_z_kern (redshift : Arr ℝ) (Om0 w0 wa h : ℝ) : Except PyErr (Arr ℝ) := do
  let t0 := scal (FlatWcdm.age_at_z0 Om0 w0 wa h)
  let tlook ← lookback_to_z redshift Om0 w0 wa h
  map2 (· - ·) t0 tlook

/-- flat_wcdm.py:255-280 `_age_at_z_vmap`, `age_at_z` -/
noncomputable def age_at_z (redshift : Arr ℝ) (Om0 w0 wa h : ℝ) : Except PyErr (Arr ℝ) :=
  vmap (fun z => age_at_z_kern z Om0 w0 wa h) (atleast1d redshift)

/-- flat_wcdm.py:283-307 `rho_crit` (elementwise) -/
noncomputable def rho_crit (redshift : Arr ℝ) (Om0 w0 wa h : ℝ) : Except PyErr (Arr ℝ) :=
  return map (fun E => FlatWcdm.RHO_CRIT0_KPC3_UNITY_H * h * h * E ^ 2) (Ez redshift Om0 w0 wa)

/-- flat_wcdm.py:310-313 `_Om_at_z` -/
noncomputable def Om_at_z (z : Arr ℝ) (Om0 w0 wa : ℝ) : Except PyErr (Arr ℝ) := do
  let E := Ez z Om0 w0 wa
  let a ← map2 (· / ·) (map (fun z => Om0 * (1.0 + z) ^ 3) z) E
  map2 (· / ·) a E

/-- flat_wcdm.py:103-104 -/
noncomputable def comoving_distance (redshift : Arr ℝ) (Om0 w0 wa h : ℝ) : Except PyErr (Arr ℝ) :=
  vmap (fun z => comoving_distance_to_z z Om0 w0 wa h) redshift
/-- flat_wcdm.py:317 -/
noncomputable def distance_modulus (redshift : Arr ℝ) (Om0 w0 wa h : ℝ) : Except PyErr (Arr ℝ) :=
  vmap (fun z => distance_modulus_to_z z Om0 w0 wa h) redshift
/-- flat_wcdm.py:318 -/
noncomputable def luminosity_distance (redshift : Arr ℝ) (Om0 w0 wa h : ℝ) : Except PyErr (Arr ℝ) :=
  vmap (fun z => luminosity_distance_to_z z Om0 w0 wa h) redshift
/-- flat_wcdm.py:319 -/
noncomputable def angular_diameter_distance (redshift : Arr ℝ) (Om0 w0 wa h : ℝ) : Except PyErr (Arr ℝ) :=
  vmap (fun z => angular_diameter_distance_to_z z Om0 w0 wa h) redshift
/-- flat_wcdm.py:320 -/
noncomputable def lookback_time (redshift : Arr ℝ) (Om0 w0 wa h : ℝ) : Except PyErr (Arr ℝ) :=
  vmap (fun z => lookback_to_z z Om0 w0 wa h) redshift
/-- flat_wcdm.py:321 `_Om` -/
noncomputable def Om (z : Arr ℝ) (Om0 w0 wa : ℝ) : Except PyErr (Arr ℝ) :=
  vmap (fun z => Om_at_z z Om0 w0 wa) z

/-- flat_wcdm.py:324-328 `_delta_vir` -/
noncomputable def delta_vir (z : Arr ℝ) (Om0 w0 wa : ℝ) : Except PyErr (Arr ℝ) := do
  let x := map (· - 1.0) (← Om z Om0 w0 wa)
  return map (fun x => 18 * Real.pi ^ 2 + 82.0 * x - 39.0 * x ^ 2) x

/-- flat_wcdm.py:331-360 `virial_dynamical_time` -/
noncomputable def virial_dynamical_time (redshift : Arr ℝ) (Om0 w0 wa h : ℝ) : Except PyErr (Arr ℝ) := do
  let delta ← delta_vir redshift Om0 w0 wa
  map2 (· * ·) (map ((2 : ℝ) ^ (1.5 : ℝ) * ·) (hubble_time redshift Om0 w0 wa h)) (map (· ^ (-0.5 : ℝ)) delta)

/-- flat_wcdm.py:371-379 `differential_comoving_volume_at_z` -/
noncomputable def differential_comoving_volume_at_z (redshift : Arr ℝ) (Om0 w0 wa h : ℝ) : Except PyErr (Arr ℝ) := do
  let dh := FlatWcdm.hubble_distance_mpc h
  let da ← angular_diameter_distance_to_z redshift Om0 w0 wa h
  let zp1 := map (1.0 + ·) redshift
  let ez := Ez redshift Om0 w0 wa
  let p ← map2 (· * ·) zp1 da
  map2 (· / ·) (map (fun p => dh * p ^ (2.0 : ℝ)) p) ez

/-- flat_wcdm.py:382-383 -/
noncomputable def differential_comoving_volume (redshift : Arr ℝ) (Om0 w0 wa h : ℝ) : Except PyErr (Arr ℝ) :=
  vmap (fun z => differential_comoving_volume_at_z z Om0 w0 wa h) redshift

end Dsps.NdCosmo
