/- Second model of the SED part of dsps (utils.py, sed/*.py), with the IEEE special values of `Verif/XF.lean`: used for statements
about nan and inf. -/
import Verif.Model.XFUtils
import Verif.Model.SspWeights

namespace Dsps.XFSed
open Dsps.Constants
open Classical

variable {n m k w : ℕ}

/-- the array of `jnp.zeros(n)` -/
noncomputable def zeros (n : ℕ) : Fin n → XF := fun _ => 0

/-- `jnp.diff(a)` -/
noncomputable def diff (a : Fin (n + 1) → XF) : Fin n → XF := fun i => Jnp.tail a i - Jnp.init a i

/-- utils.py:15-28 `_jax_get_dt_array` -/
noncomputable def jax_get_dt_array (t : Fin (n + 3) → XF) : Fin (n + 3) → XF :=
  let dt := zeros (n + 3)
  let tmids : Fin (n + 2) → XF := fun i => 0.5 * (Jnp.init t i + Jnp.tail t i)
  let dtmids : Fin (n + 1) → XF := diff tmids
  let dt := Jnp.setInterior dt dtmids
  let t_lo := t 0 - (t 1 - t 0) / 2
  let t_hi := Jnp.last t + Jnp.last dtmids / 2
  let dt := Jnp.setAt dt 0 (tmids 0 - t_lo)
  let dt := Jnp.setAt dt (Fin.last (n + 2)) (t_hi - Jnp.last tmids)
  dt

/-- utils.py:31-53 `_get_bin_edges` -/
noncomputable def get_bin_edges (bin_mids : Fin (n + 3) → XF) (lowest_bin_edge highest_bin_edge : XF) : Fin (n + 4) → XF :=
  let dbins := jax_get_dt_array bin_mids
  let bin_edges := zeros (n + 4)
  let bin_edges := Jnp.setInit bin_edges (fun i => bin_mids i - dbins i / 2)
  let bin_edges := Jnp.setAt bin_edges 0 lowest_bin_edge
  let bin_edges := Jnp.setAt bin_edges (Fin.last (n + 3)) highest_bin_edge
  bin_edges

/-- utils.py:247-254 `_cumtrapz_scan_func` -/
noncomputable def cumtrapz_scan_func (carryover : XF × XF × XF) (el : XF × XF) : (XF × XF × XF) × XF :=
  let b := el.1
  let fb := el.2
  let a := carryover.1
  let fa := carryover.2.1
  let cumtrapz := carryover.2.2
  let cumtrapz := cumtrapz + (b - a) * (fb + fa) / 2.0
  ((b, fb, cumtrapz), cumtrapz)

/-- utils.py:257-275 `cumtrapz` -/
noncomputable def cumtrapz (xarr yarr : Fin (n + 1) → XF) : Fin (n + 1) → XF :=
  let res_init := (xarr 0, yarr 0, (0 : XF))
  let scan_data := fun i => (xarr i, yarr i)
  (Jnp.scan cumtrapz_scan_func res_init scan_data).2

/-- utils.py:278-293 `trapz` (`jnp.trapezoid`) -/
noncomputable def trapz (xarr yarr : Fin (n + 1) → XF) : XF :=
  0.5 * XF.sum (fun i => diff xarr i * (Jnp.tail yarr i + Jnp.init yarr i))

/-- utils.py:296-334 `cumulative_mstar_formed` -/
noncomputable def cumulative_mstar_formed (t_table sfh_table : Fin n → XF) : Fin n → XF :=
  let padded_t_table := zeros (n + 1)
  let padded_t_table := Jnp.setAt padded_t_table 0 (XF.fin T_BIRTH_MIN)
  let padded_t_table := Jnp.setTail padded_t_table t_table
  let padded_sfh_table := zeros (n + 1)
  let padded_sfh_table := Jnp.setAt padded_sfh_table 0 (XF.fin SFR_MIN)
  let padded_sfh_table := Jnp.setTail padded_sfh_table sfh_table
  fun i => Jnp.tail (cumtrapz padded_t_table padded_sfh_table) i * XF.fin Utils.YEAR_PER_GYR

/-- `jnp.searchsorted(xp, x, side="right")` on a sorted finite array: the number of entries `≤ x`. -/
noncomputable def searchsortedRight (xp : Fin n → XF) (x : XF) : ℕ := (Finset.univ.filter fun j => xp j ≤ x).card

/-- the left end of the interpolation cell of `jnp.interp`, as in `Jnp.interpCell` -/
noncomputable def interpCell (xp : Fin (n + 2) → XF) (x : XF) : Fin (n + 1) :=
  ⟨min (max (searchsortedRight xp x) 1) (n + 1) - 1, by omega⟩

/-- `abs` -/
noncomputable def abs : XF → XF
  | .nan => .nan
  | .inf _ => .inf false
  | .nzero => 0
  | .fin x => .fin |x|

/-- `jnp.interp(x, xp, fp, left=left, right=right)`: as in `Jnp.interpLR`, including the order of JAX's arithmetic
`fp[i-1] + (delta / where(dx0, 1, dx)) * df`. -/
noncomputable def interpLR [Jnp.Dtype] (x : XF) (xp fp : Fin (n + 2) → XF) (left right : XF) : XF :=
  let i := interpCell xp x
  let df := fp i.succ - fp i.castSucc
  let dx := xp i.succ - xp i.castSucc
  let delta := x - xp i.castSucc
  let dx0 : Prop := abs dx ≤ XF.fin Jnp.Dtype.interpEps
  let f := if dx0 then fp i.castSucc else fp i.castSucc + delta / (if dx0 then 1 else dx) * df
  let f := if x < xp 0 then left else f
  if xp (Fin.last (n + 1)) < x then right else f

/-- `jnp.interp(x, xp, fp)` -/
noncomputable def interp [Jnp.Dtype] (x : XF) (xp fp : Fin (n + 2) → XF) : XF :=
  interpLR x xp fp (fp 0) (Jnp.last fp)

/-- stellar_age_weights.py:118-125 `_get_lgt_birth`, one age. -/
noncomputable def get_lgt_birth (t_obs lg_age : XF) : XF :=
  let t_birth := t_obs - XF.exp10 lg_age
  let t_birth := if t_birth < XF.fin T_BIRTH_MIN then XF.fin T_BIRTH_MIN else t_birth
  XF.log10 t_birth

/-- stellar_age_weights.py:128-163 `_get_lg_age_bin_edges` -/
noncomputable def get_lg_age_bin_edges (lg_ages : Fin (m + 3) → XF) : Fin (m + 4) → XF :=
  let dlgtau := jax_get_dt_array lg_ages
  let lg_age_bin_edges := zeros (m + 4)
  let lg_age_bin_edges := Jnp.setInit lg_age_bin_edges (fun i => lg_ages i - dlgtau i / 2)
  let dlowest := (lg_ages 1 - lg_ages 0) / 2
  let lowest := lg_ages 0 - dlowest
  let highest := Jnp.last lg_ages + Jnp.last dlgtau / 2
  let lg_age_bin_edges := Jnp.setAt lg_age_bin_edges 0 lowest
  let lg_age_bin_edges := Jnp.setAt lg_age_bin_edges (Fin.last (m + 3)) highest
  lg_age_bin_edges

/-- stellar_age_weights.py:166-183 `_calc_logsm_table_from_sfh_table` -/
noncomputable def calc_logsm_table_from_sfh_table (gal_t_table gal_sfr_table : Fin n → XF) (sfr_min : XF) : Fin n → XF :=
  let gal_sfr_table := fun i => if gal_sfr_table i < sfr_min then sfr_min else gal_sfr_table i
  let gal_smh_table := cumulative_mstar_formed gal_t_table gal_sfr_table
  fun i => XF.log10 (gal_smh_table i)

/-- stellar_age_weights.py:52-88 `_calc_age_weights_from_logsm_table` (second output) -/
noncomputable def calc_age_weights_from_logsm_table [Jnp.Dtype] (lgt_table logsm_table : Fin (n + 2) → XF)
    (ssp_lg_age_gyr : Fin (m + 3) → XF) (t_obs : XF) : Fin (m + 3) → XF :=
  let lg_age_bin_edges := get_lg_age_bin_edges ssp_lg_age_gyr
  let lgt_birth_bin_edges := fun i => get_lgt_birth t_obs (lg_age_bin_edges i)
  let logsm_at_t_birth_bin_edges := fun i => interp (lgt_birth_bin_edges i) lgt_table logsm_table
  let delta_mstar_at_t_birth := fun i => - diff (fun i => XF.exp10 (logsm_at_t_birth_bin_edges i)) i
  fun i => delta_mstar_at_t_birth i / XF.sum delta_mstar_at_t_birth

/-- stellar_age_weights.py:18-49 `calc_age_weights_from_sfh_table` -/
noncomputable def calc_age_weights_from_sfh_table [Jnp.Dtype] (gal_t_table gal_sfr_table : Fin (n + 2) → XF)
    (ssp_lg_age_gyr : Fin (m + 3) → XF) (t_obs : XF) (sfr_min : XF := XF.fin SFR_MIN) : Fin (m + 3) → XF :=
  let logsm_table := calc_logsm_table_from_sfh_table gal_t_table gal_sfr_table sfr_min
  let gal_lgt_table := fun i => XF.log10 (gal_t_table i)
  calc_age_weights_from_logsm_table gal_lgt_table logsm_table ssp_lg_age_gyr t_obs

/-- metallicity_weights.py:26-51 `calc_lgmet_weights_from_lognormal_mdf` -/
noncomputable def calc_lgmet_weights_from_lognormal_mdf (gal_lgmet gal_lgmet_scatter : XF) (ssp_lgmet : Fin (k + 3) → XF) :
    Fin (k + 3) → XF :=
  let lgmetbin_edges := get_bin_edges ssp_lgmet (XF.fin LGMET_LO) (XF.fin LGMET_HI)
  XFUtils.get_lgmet_weights_singlegal gal_lgmet gal_lgmet_scatter lgmetbin_edges

/-- metallicity_weights.py:54-128 `calc_lgmet_weights_from_lgmet_table` with `_calc_lgmet_at_ssp_lgage_table` -/
noncomputable def calc_lgmet_weights_from_lgmet_table [Jnp.Dtype] (gal_t_table gal_lgmet_table : Fin (n + 2) → XF)
    (gal_lgmet_scatter : XF) (ssp_lgmet : Fin (k + 3) → XF) (ssp_lg_age_gyr : Fin m → XF) (t_obs : XF) :
    Fin (k + 3) → Fin m → XF :=
  let lgt_table := fun i => XF.log10 (gal_t_table i)
  let lgmet_at_ssp_lgages := fun i => interp (get_lgt_birth t_obs (ssp_lg_age_gyr i)) lgt_table gal_lgmet_table
  let lgmetbin_edges := get_bin_edges ssp_lgmet (XF.fin LGMET_LO) (XF.fin LGMET_HI)
  let lgmet_weight_matrix := fun i => XFUtils.get_lgmet_weights_singlegal (lgmet_at_ssp_lgages i) gal_lgmet_scatter lgmetbin_edges
  let lgmet_weight_matrix := fun i j => lgmet_weight_matrix i j / XF.fin (m : ℝ)
  fun j i => lgmet_weight_matrix i j

/-- `weights.sum()` of a 2-d array -/
noncomputable def sum2 {a b : ℕ} (x : Fin a → Fin b → XF) : XF := XF.sum fun i => XF.sum fun j => x i j

/-- ssp_weights.py:80-90 and 147-157: the normalised outer product, here for metallicity weights per age. -/
noncomputable def ssp_weights {a b : ℕ} (lgmet_weights : Fin a → Fin b → XF) (age_weights : Fin b → XF) : Fin a → Fin b → XF :=
  let weights := fun i j => lgmet_weights i j * age_weights j
  let total := sum2 weights
  fun i j => weights i j / total

/-- stellar_sed.py:120-124, 203-207 -/
noncomputable def mstar_obs [Jnp.Dtype] (gal_t_table gal_sfr_table : Fin (n + 2) → XF) (t_obs sfr_min : XF) : XF :=
  let lgt_obs := XF.log10 t_obs
  let lgt_table := fun i => XF.log10 (gal_t_table i)
  let logsm_table := calc_logsm_table_from_sfh_table gal_t_table gal_sfr_table sfr_min
  let logsm_obs := interp lgt_obs lgt_table logsm_table
  XF.exp10 logsm_obs

/-- stellar_sed.py:46-127 `calc_rest_sed_sfh_table_lognormal_mdf` (first output) -/
noncomputable def calc_rest_sed_sfh_table_lognormal_mdf [Jnp.Dtype] (gal_t_table gal_sfr_table : Fin (n + 2) → XF)
    (gal_lgmet gal_lgmet_scatter : XF) (ssp_lgmet : Fin (k + 3) → XF) (ssp_lg_age_gyr : Fin (m + 3) → XF)
    (ssp_flux : Fin (k + 3) → Fin (m + 3) → Fin w → XF) (t_obs : XF) (sfr_min : XF := XF.fin SFR_MIN) : Fin w → XF :=
  let age_weights := calc_age_weights_from_sfh_table gal_t_table gal_sfr_table ssp_lg_age_gyr t_obs
  let lgmet_weights := calc_lgmet_weights_from_lognormal_mdf gal_lgmet gal_lgmet_scatter ssp_lgmet
  let weights := ssp_weights (fun i _ => lgmet_weights i) age_weights
  let sed_unit_mstar := fun l => sum2 fun i j => ssp_flux i j l * weights i j
  fun l => sed_unit_mstar l * mstar_obs gal_t_table gal_sfr_table t_obs sfr_min

/-- stellar_sed.py:130-210 `calc_rest_sed_sfh_table_met_table` (first output) -/
noncomputable def calc_rest_sed_sfh_table_met_table [Jnp.Dtype] (gal_t_table gal_sfr_table gal_lgmet_table : Fin (n + 2) → XF)
    (gal_lgmet_scatter : XF) (ssp_lgmet : Fin (k + 3) → XF) (ssp_lg_age_gyr : Fin (m + 3) → XF)
    (ssp_flux : Fin (k + 3) → Fin (m + 3) → Fin w → XF) (t_obs : XF) (sfr_min : XF := XF.fin SFR_MIN) : Fin w → XF :=
  let age_weights := calc_age_weights_from_sfh_table gal_t_table gal_sfr_table ssp_lg_age_gyr t_obs
  let lgmet_weights := calc_lgmet_weights_from_lgmet_table gal_t_table gal_lgmet_table gal_lgmet_scatter ssp_lgmet
    ssp_lg_age_gyr t_obs
  let weights := ssp_weights lgmet_weights age_weights
  let sed_unit_mstar := fun l => sum2 fun i j => ssp_flux i j l * weights i j
  fun l => sed_unit_mstar l * mstar_obs gal_t_table gal_sfr_table t_obs sfr_min

end Dsps.XFSed
