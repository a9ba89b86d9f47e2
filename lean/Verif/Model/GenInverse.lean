/- Continuation of `Model/Gen.lean`: the unbounding transforms, the comoving volume and the power law over an abstract float type. -/
import Verif.Model.GenMore

namespace Dsps.Gen
open Flt

variable {α : Type} [Flt α]

/-! ### cosmology/flat_wcdm.py -/

/-- flat_wcdm.py:363-368 `hubble_distance_mpc` -/
noncomputable def hubble_distance_mpc (h : α) : α :=
  let H0 := lit 100.0 * h
  let c_speed_kms := lit (FlatWcdm.C_SPEED / 1000.0)
  let D_H := c_speed_kms / H0
  D_H

/-- flat_wcdm.py:371-379 `differential_comoving_volume_at_z`.  `x ** 2.0` is `lax.pow` with a constant exponent: value `x²` and derivative
`2.0 * x ** 1.0` for every finite `x`, which is what `integer_pow` gives. -/
noncomputable def differential_comoving_volume_at_z (redshift Om0 w0 wa h : α) : α :=
  let dh := hubble_distance_mpc h
  let da := angular_diameter_distance_to_z redshift Om0 w0 wa h
  let zp1 := lit 1.0 + redshift
  let ez := Ez redshift Om0 w0 wa
  let diff_vol_com := dh * ipow (zp1 * da) 2 / ez
  diff_vol_com

/-! ### utils.py -/

/-- utils.py:190-215 `powerlaw_pdf` (elementwise) -/
noncomputable def powerlaw_pdf (x a b g : α) : α :=
  let ag := pow a g
  let bg := pow b g
  g * pow x (g - lit 1) / (bg - ag)

/-- utils.py:218-244 `powerlaw_rvs` (elementwise); `r` is the uniform deviate drawn for the element -/
noncomputable def powerlaw_rvs (r a b g : α) : α :=
  let ag := pow a g
  let bg := pow b g
  pow (ag + (bg - ag) * r) (lit 1.0 / g)

/-! ### sfh/diffburst.py -/

/-- diffburst.py:183-185 `_get_u_lgfburst_from_lgfburst` -/
noncomputable def get_u_lgfburst_from_lgfburst (lgfburst : α) : α :=
  inverse_sigmoid lgfburst (lit Diffburst.LGFB_X0) (lit Diffburst.LGFB_K) (lit Diffburst.LGFBURST_MIN) (lit Diffburst.LGFBURST_MAX)

/-- diffburst.py:196-201 `_get_u_lgyr_peak_from_lgyr_peak` -/
noncomputable def get_u_lgyr_peak_from_lgyr_peak (lgyr_peak : α) : α :=
  let lo := lit Diffburst.LGYR_PEAK_MIN
  let hi := lit Diffburst.LGYR_PEAK_MAX
  let x0 := lit 0.5 * (hi + lo)
  inverse_sigmoid lgyr_peak x0 (lit Diffburst.LGAGE_K) lo hi

/-- diffburst.py:204-209 `_get_u_lgyr_max_from_lgyr_peak` -/
noncomputable def get_u_lgyr_max_from_lgyr_peak (lgyr_peak lgyr_max : α) : α :=
  let lo := lgyr_peak + lit Diffburst.DLGAGE_MIN
  let hi := lit Diffburst.LGAGE_MAX
  let x0 := lit 0.5 * (hi + lo)
  inverse_sigmoid lgyr_max x0 (lit Diffburst.LGAGE_K) lo hi

/-- diffburst.py:158-166 `_get_u_params_from_params` with :151-155 `_get_tburst_u_params_from_tburst_params`, the parameters as an array in
field order -/
noncomputable def get_u_params_from_params (params : Fin 3 → α) : Fin 3 → α :=
  let u_lgfburst := get_u_lgfburst_from_lgfburst (params 0)
  let u_lgyr_peak := get_u_lgyr_peak_from_lgyr_peak (params 1)
  let u_lgyr_max := get_u_lgyr_max_from_lgyr_peak (params 1) (params 2)
  ![u_lgfburst, u_lgyr_peak, u_lgyr_max]

/-- diffburst.py:133-141 `_get_params_from_u_params` with :144-148 `_get_tburst_params_from_tburst_u_params` -/
noncomputable def get_params_from_u_params (u_params : Fin 3 → α) : Fin 3 → α :=
  let lgfburst := get_lgfburst_from_u_lgfburst (u_params 0)
  let lgyr_peak := get_lgyr_peak_from_u_lgyr_peak (u_params 1)
  let lgyr_max := get_lgyr_max_from_lgyr_peak lgyr_peak (u_params 2)
  ![lgfburst, lgyr_peak, lgyr_max]

/-! ### metallicity/umzr.py -/

/-- umzr.py:199-203 `_get_square_unbounded_param` -/
noncomputable def get_square_unbounded_param (param : α) (bound : ℝ × ℝ) : α :=
  let lo := lit bound.1
  let hi := lit bound.2
  let mid := lit 0.5 * (lo + hi)
  inverse_sigmoid param mid (lit Umzr.BOUNDING_K) lo hi

/-- umzr.py:215-220 `_get_u_mzr_t0_slope_hi_from_bounded` -/
noncomputable def get_u_mzr_t0_slope_hi_from_bounded (mzr_t0_slope_lo mzr_t0_slope_hi : α) : α :=
  let x0 := lit 0.0
  let ylo := lit (Umzr.MZR_PBDICT 4).1
  let yhi := mzr_t0_slope_lo
  inverse_sigmoid mzr_t0_slope_hi x0 (lit Umzr.BOUNDING_K) ylo yhi

/-- umzr.py:225, 247-264 `get_unbounded_mzr_params`; the nine parameters as an array in field order.  `_get_u_params_kern` returns one array, whose
entries are read out (`take`) into the fields of the result; the entry for `u_mzr_t0_slope_hi` is then overwritten. -/
noncomputable def get_unbounded_mzr_params (params : Fin 9 → α) : Fin 9 → α :=
  let u_parr := fun i => get_square_unbounded_param (params i) (Umzr.MZR_PBDICT i)
  let u_params := fun i => take u_parr i
  let u_mzr_t0_slope_hi := get_u_mzr_t0_slope_hi_from_bounded (params 3) (params 4)
  Function.update u_params 4 u_mzr_t0_slope_hi

end Dsps.Gen
