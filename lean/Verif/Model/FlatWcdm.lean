import Verif.Jnp
import Verif.Model.Utils
import Mathlib.Analysis.SpecialFunctions.Sqrt
import Mathlib.Analysis.Real.Pi.Bounds

/-! Model of `/repo/dsps/cosmology/flat_wcdm.py` and `/repo/dsps/cosmology/defaults.py`.
Scalars are exact reals; `jit` is the identity.  `x ** p` with a non-integer (or traced) exponent is `Real.rpow`. -/
namespace Dsps.FlatWcdm
open Jnp Dsps.Utils

variable {n : ℕ}

/-- flat_wcdm.py:25-31 `CosmoParams` -/
structure CosmoParams where
  Om0 : ℝ
  w0 : ℝ
  wa : ℝ
  h : ℝ

/-- flat_wcdm.py:34 -/
noncomputable def PLANCK15 : CosmoParams := ⟨0.3075, -1.0, 0.0, 0.6774⟩
/-- flat_wcdm.py:35 -/
noncomputable def WMAP5 : CosmoParams := ⟨0.277, -1.0, 0.0, 0.702⟩
/-- flat_wcdm.py:36 -/
noncomputable def FSPS_COSMO : CosmoParams := ⟨0.27, -1.0, 0.0, 0.72⟩
/-- flat_wcdm.py:39, metres per second -/
noncomputable def C_SPEED : ℝ := 2.99792458e8
/-- flat_wcdm.py:42 -/
noncomputable def RHO_CRIT0_KPC3_UNITY_H : ℝ := 277.536627
/-- flat_wcdm.py:44, Mpc in cm -/
noncomputable def MPC : ℝ := 3.08567758149e24
/-- flat_wcdm.py:45, year in seconds -/
noncomputable def YEAR : ℝ := 31556925.2

/-- flat_wcdm.py:48-52 `_rho_de_z` -/
noncomputable def rho_de_z (z w0 wa : ℝ) : ℝ :=
  let a := 1.0 / (1.0 + z)
  let de_z := a ^ (-3.0 * (1.0 + w0 + wa)) * Real.exp (-3.0 * wa * (1.0 - a))
  de_z

/-- flat_wcdm.py:55-61 `_Ez` -/
noncomputable def Ez (z Om0 w0 wa : ℝ) : ℝ :=
  let zp1 := 1.0 + z
  let Ode0 := 1.0 - Om0
  let t := Om0 * zp1 ^ 3 + Ode0 * rho_de_z z w0 wa
  let E := Real.sqrt t
  E

/-- flat_wcdm.py:64-66 `_integrand_oneOverEz` -/
noncomputable def integrand_oneOverEz (z Om0 w0 wa : ℝ) : ℝ := 1 / Ez z Om0 w0 wa

/-- flat_wcdm.py:69-71 `_integrand_oneOverEz1pz` (not called anywhere in dsps; the same expression is inlined in
`lookback_to_z` and `age_at_z0`). -/
noncomputable def integrand_oneOverEz1pz (z Om0 w0 wa : ℝ) : ℝ := 1.0 / Ez z Om0 w0 wa / (1.0 + z)

/-- flat_wcdm.py:74-100 `comoving_distance_to_z`; the table has 256 = 254 + 2 entries. -/
noncomputable def comoving_distance_to_z (redshift Om0 w0 wa h : ℝ) : ℝ :=
  let z_table := linspace 0 redshift 254
  let integrand := fun i => integrand_oneOverEz (z_table i) Om0 w0 wa
  trapz z_table integrand * C_SPEED * 1e-5 / h

/-- flat_wcdm.py:103-104 -/
noncomputable def comoving_distance (redshift : Fin n → ℝ) (Om0 w0 wa h : ℝ) : Fin n → ℝ :=
  vmap (fun z => comoving_distance_to_z z Om0 w0 wa h) redshift

/-- flat_wcdm.py:107-129 `luminosity_distance_to_z` -/
noncomputable def luminosity_distance_to_z (redshift Om0 w0 wa h : ℝ) : ℝ :=
  comoving_distance_to_z redshift Om0 w0 wa h * (1 + redshift)

/-- flat_wcdm.py:132-154 `angular_diameter_distance_to_z` -/
noncomputable def angular_diameter_distance_to_z (redshift Om0 w0 wa h : ℝ) : ℝ :=
  comoving_distance_to_z redshift Om0 w0 wa h / (1 + redshift)

/-- flat_wcdm.py:157-182 `distance_modulus_to_z` -/
noncomputable def distance_modulus_to_z (redshift Om0 w0 wa h : ℝ) : ℝ :=
  let d_lum := luminosity_distance_to_z redshift Om0 w0 wa h
  let mu := 5.0 * log10 (d_lum * 1e5)
  mu

/-- flat_wcdm.py:185-189 `_hubble_time` -/
noncomputable def hubble_time (z Om0 w0 wa h : ℝ) : ℝ :=
  let E0 := Ez z Om0 w0 wa
  let htime := 1e-16 * MPC / YEAR / h / E0
  htime

/-- flat_wcdm.py:192-218 `lookback_to_z`; the table has 512 = 510 + 2 entries. -/
noncomputable def lookback_to_z (redshift Om0 w0 wa h : ℝ) : ℝ :=
  let z_table := linspace 0 redshift 510
  let integrand := fun i => 1 / Ez (z_table i) Om0 w0 wa / (1 + z_table i)
  let res := trapz z_table integrand
  let th := hubble_time 0.0 Om0 w0 wa h
  th * res

/-- flat_wcdm.py:221-245 `age_at_z0` -/
noncomputable def age_at_z0 (Om0 w0 wa h : ℝ) : ℝ :=
  let z_table := fun i => logspace 0 3 510 i - 1.0
  let integrand := fun i => 1 / Ez (z_table i) Om0 w0 wa / (1 + z_table i)
  let res := trapz z_table integrand
  let th := hubble_time 0.0 Om0 w0 wa h
  th * res

/-- flat_wcdm.py:248-252 `_age_at_z_kern` -/
noncomputable def age_at_z_kern (redshift Om0 w0 wa h : ℝ) : ℝ :=
  let t0 := age_at_z0 Om0 w0 wa h
  let tlook := lookback_to_z redshift Om0 w0 wa h
  t0 - tlook

/-- flat_wcdm.py:255-280 `_age_at_z_vmap`, `age_at_z`.  `jnp.atleast_1d` is the identity on a 1-d array; a scalar
redshift is the case `n = 1`. -/
noncomputable def age_at_z (redshift : Fin n → ℝ) (Om0 w0 wa h : ℝ) : Fin n → ℝ :=
  vmap (fun z => age_at_z_kern z Om0 w0 wa h) redshift

/-- flat_wcdm.py:283-307 `rho_crit` -/
noncomputable def rho_crit (redshift Om0 w0 wa h : ℝ) : ℝ :=
  let rho_crit0 := RHO_CRIT0_KPC3_UNITY_H * h * h
  let rho_crit := rho_crit0 * Ez redshift Om0 w0 wa ^ 2
  rho_crit

/-- flat_wcdm.py:310-313 `_Om_at_z` -/
noncomputable def Om_at_z (z Om0 w0 wa : ℝ) : ℝ :=
  let E := Ez z Om0 w0 wa
  Om0 * (1.0 + z) ^ 3 / E / E

/-- flat_wcdm.py:317 -/
noncomputable def distance_modulus (redshift : Fin n → ℝ) (Om0 w0 wa h : ℝ) : Fin n → ℝ :=
  vmap (fun z => distance_modulus_to_z z Om0 w0 wa h) redshift
/-- flat_wcdm.py:318 -/
noncomputable def luminosity_distance (redshift : Fin n → ℝ) (Om0 w0 wa h : ℝ) : Fin n → ℝ :=
  vmap (fun z => luminosity_distance_to_z z Om0 w0 wa h) redshift
/-- flat_wcdm.py:319 -/
noncomputable def angular_diameter_distance (redshift : Fin n → ℝ) (Om0 w0 wa h : ℝ) : Fin n → ℝ :=
  vmap (fun z => angular_diameter_distance_to_z z Om0 w0 wa h) redshift
/-- flat_wcdm.py:320 -/
noncomputable def lookback_time (redshift : Fin n → ℝ) (Om0 w0 wa h : ℝ) : Fin n → ℝ :=
  vmap (fun z => lookback_to_z z Om0 w0 wa h) redshift
/-- flat_wcdm.py:321 `_Om` -/
noncomputable def Om (z : Fin n → ℝ) (Om0 w0 wa : ℝ) : Fin n → ℝ :=
  vmap (fun z => Om_at_z z Om0 w0 wa) z

/-- flat_wcdm.py:324-328 `_delta_vir` (the redshift must be an array, since `_Om` is a vmap over it). -/
noncomputable def delta_vir (z : Fin n → ℝ) (Om0 w0 wa : ℝ) : Fin n → ℝ := fun i =>
  let x := Om z Om0 w0 wa i - 1.0
  let Delta := 18 * Real.pi ^ 2 + 82.0 * x - 39.0 * x ^ 2
  Delta

/-- flat_wcdm.py:331-360 `virial_dynamical_time` (array redshift; the docstring says float) -/
noncomputable def virial_dynamical_time (redshift : Fin n → ℝ) (Om0 w0 wa h : ℝ) : Fin n → ℝ := fun i =>
  let delta := delta_vir redshift Om0 w0 wa i
  let t_cross := (2 : ℝ) ^ (1.5 : ℝ) * hubble_time (redshift i) Om0 w0 wa h * delta ^ (-0.5 : ℝ)
  t_cross

/-- flat_wcdm.py:363-368 `hubble_distance_mpc` -/
noncomputable def hubble_distance_mpc (h : ℝ) : ℝ :=
  let H0 := 100.0 * h
  let c_speed_kms := C_SPEED / 1000.0
  let D_H := c_speed_kms / H0
  D_H

/-- flat_wcdm.py:371-379 `differential_comoving_volume_at_z` -/
noncomputable def differential_comoving_volume_at_z (redshift Om0 w0 wa h : ℝ) : ℝ :=
  let dh := hubble_distance_mpc h
  let da := angular_diameter_distance_to_z redshift Om0 w0 wa h
  let zp1 := 1.0 + redshift
  let ez := Ez redshift Om0 w0 wa
  let diff_vol_com := dh * ((zp1 * da) ^ (2.0 : ℝ)) / ez
  diff_vol_com

/-- flat_wcdm.py:382-383 -/
noncomputable def differential_comoving_volume (redshift : Fin n → ℝ) (Om0 w0 wa h : ℝ) : Fin n → ℝ :=
  vmap (fun z => differential_comoving_volume_at_z z Om0 w0 wa h) redshift

/-- cosmology/defaults.py:3 -/
noncomputable def DEFAULT_COSMOLOGY : CosmoParams := PLANCK15

/-- cosmology/defaults.py:8 `TODAY` -/
noncomputable def TODAY : ℝ :=
  age_at_z0 DEFAULT_COSMOLOGY.Om0 DEFAULT_COSMOLOGY.w0 DEFAULT_COSMOLOGY.wa DEFAULT_COSMOLOGY.h

end Dsps.FlatWcdm
