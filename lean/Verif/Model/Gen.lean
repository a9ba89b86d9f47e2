/- Third model of the differentiable parts of dsps: the same programs over an abstract float type (`Verif/Flt.lean`), so that they
can be run on plain floats and, recorded, under `jax.grad`.  On plain floats they are definitionally the models of
`Model/XF*.lean` (checked in `Lemmas/GenCheck.lean`). -/
import Verif.Flt

namespace Dsps.Gen
open Dsps.Constants
open Flt

variable {α : Type} [Flt α] {n m k w : ℕ}

/-- `a < b`, `a <= b`, `a == b` -/
def lt (a b : α) : Prop := value a < value b
def le (a b : α) : Prop := value a ≤ value b
def eqv (a b : α) : Prop := XF.eqv (value a) (value b)

/-! ### utils.py -/

/-- the array of `jnp.zeros(n)` -/
def zeros (n : ℕ) : Fin n → α := fun _ => lit 0

/-- `jnp.diff(a)` -/
def diff (a : Fin (n + 1) → α) : Fin n → α := fun i => Jnp.tail a i - Jnp.init a i

/-- utils.py:15-28 `_jax_get_dt_array` -/
noncomputable def jax_get_dt_array (t : Fin (n + 3) → α) : Fin (n + 3) → α :=
  let dt := zeros (n + 3)
  let tmids : Fin (n + 2) → α := fun i => lit 0.5 * (Jnp.init t i + Jnp.tail t i)
  let dtmids : Fin (n + 1) → α := diff tmids
  let dt := Jnp.setInterior dt dtmids
  let t_lo := t 0 - (t 1 - t 0) / lit 2
  let t_hi := Jnp.last t + Jnp.last dtmids / lit 2
  let dt := Jnp.setAt dt 0 (tmids 0 - t_lo)
  let dt := Jnp.setAt dt (Fin.last (n + 2)) (t_hi - Jnp.last tmids)
  dt

/-- utils.py:31-53 `_get_bin_edges` -/
noncomputable def get_bin_edges (bin_mids : Fin (n + 3) → α) (lowest_bin_edge highest_bin_edge : α) : Fin (n + 4) → α :=
  let dbins := jax_get_dt_array bin_mids
  let bin_edges := zeros (n + 4)
  let bin_edges := Jnp.setInit bin_edges (fun i => bin_mids i - dbins i / lit 2)
  let bin_edges := Jnp.setAt bin_edges 0 lowest_bin_edge
  let bin_edges := Jnp.setAt bin_edges (Fin.last (n + 3)) highest_bin_edge
  bin_edges

/-- utils.py:56-63 `_tw_cuml_kern` -/
noncomputable def tw_cuml_kern (x m h : α) : α :=
  let z := (x - m) / h
  let val := -(lit 5) * ipow z 7 / lit 69984 + lit 7 * ipow z 5 / lit 2592 - lit 35 * ipow z 3 / lit 864 + lit 35 * z / lit 96
    + lit 1 / lit 2
  let val := sel (lt z (-(lit 3))) (lit 0) val
  let val := sel (lt (lit 3) z) (lit 1) val
  val

/-- utils.py:66-70 `_tw_sigmoid` -/
noncomputable def tw_sigmoid (x x0 tw_h ymin ymax : α) : α :=
  let height_diff := ymax - ymin
  let body := tw_cuml_kern x x0 tw_h
  ymin + height_diff * body

/-- utils.py:73-78 `_triweighted_histogram_kernel` -/
noncomputable def triweighted_histogram_kernel (x sig lo hi : α) : α :=
  let a := tw_cuml_kern x lo sig
  let b := tw_cuml_kern x hi sig
  a - b

/-- utils.py:81-102 `triweighted_histogram` -/
noncomputable def triweighted_histogram (x sig : α) (xbins : Fin (n + 1) → α) : Fin n → α :=
  fun i => triweighted_histogram_kernel x sig (xbins i.castSucc) (xbins i.succ)

/-- utils.py:105-110 `triweight_gaussian` -/
noncomputable def triweight_gaussian (x m h : α) : α :=
  let z := (x - m) / h
  let val := lit 35 / lit 96 * ipow (lit 1 - ipow (z / lit 3) 2) 3 / h
  sel (lt z (-(lit 3)) ∨ lt (lit 3) z) (lit 0) val

/-- utils.py:113-116 `_tw_sig_slope` -/
noncomputable def tw_sig_slope (x xtp ytp x0 tw_h lo hi : α) : α :=
  let slope := tw_sigmoid x x0 tw_h lo hi
  ytp + slope * (x - xtp)

/-- utils.py:119-133 `_fill_empty_weights_singlepoint` -/
noncomputable def fill_empty_weights_singlepoint (x : α) (bin_edges : Fin (n + 2) → α) (weights : Fin (n + 1) → α) :
    Fin (n + 1) → α :=
  let zmsk : Prop := ∀ i, eqv (weights i) (lit 0)
  let lomsk : Prop := lt x (bin_edges 0)
  let himsk : Prop := lt (bin_edges (Fin.last (n + 1))) x
  let lores : Fin (n + 1) → α := Function.update (fun _ => lit 0) 0 (lit 1)
  let hires : Fin (n + 1) → α := Function.update (fun _ => lit 0) (Fin.last n) (lit 1)
  let weights := fun i => sel (zmsk ∧ lomsk) (lores i) (weights i)
  let weights := fun i => sel (zmsk ∧ himsk) (hires i) (weights i)
  weights

/-- utils.py:136-146 `_get_triweights_singlepoint`, metallicity_weights.py:104-116 `_get_lgmet_weights_singlegal` -/
noncomputable def get_lgmet_weights_singlegal (gal_lgmet gal_lgmet_scatter : α) (lgmetbin_edges : Fin (n + 2) → α) :
    Fin (n + 1) → α :=
  let tw_hist_results := triweighted_histogram gal_lgmet gal_lgmet_scatter lgmetbin_edges
  let tw_hist_results_sum := sum tw_hist_results
  let zmsk : Prop := eqv tw_hist_results_sum (lit 0)
  let tw_hist_results_sum := sel zmsk (lit 1) tw_hist_results_sum
  let weights := fun i => tw_hist_results i / tw_hist_results_sum
  fill_empty_weights_singlepoint gal_lgmet lgmetbin_edges weights

/-- utils.py:149-152 `_sigmoid` -/
noncomputable def sigmoid (x x0 k ylo yhi : α) : α :=
  let height_diff := yhi - ylo
  ylo + height_diff * logistic (k * (x - x0))

/-- utils.py:155-158 `_inverse_sigmoid` -/
noncomputable def inverse_sigmoid (y x0 k ylo yhi : α) : α :=
  let lnarg := (yhi - ylo) / (y - ylo) - lit 1
  x0 - log lnarg / k

/-- utils.py:161-164 `_sig_slope` -/
noncomputable def sig_slope (x xtp ytp x0 slope_k lo hi : α) : α :=
  let slope := sigmoid x x0 slope_k lo hi
  ytp + slope * (x - xtp)

/-- utils.py:247-254 `_cumtrapz_scan_func` -/
noncomputable def cumtrapz_scan_func (carryover : α × α × α) (el : α × α) : (α × α × α) × α :=
  let b := el.1
  let fb := el.2
  let a := carryover.1
  let fa := carryover.2.1
  let cumtrapz := carryover.2.2
  let cumtrapz := cumtrapz + (b - a) * (fb + fa) / lit 2.0
  ((b, fb, cumtrapz), cumtrapz)

/-- utils.py:257-275 `cumtrapz` -/
noncomputable def cumtrapz (xarr yarr : Fin (n + 1) → α) : Fin (n + 1) → α :=
  let res_init := (xarr 0, yarr 0, (lit 0 : α))
  let scan_data := fun i => (xarr i, yarr i)
  (Jnp.scan cumtrapz_scan_func res_init scan_data).2

/-- utils.py:278-293 `trapz` (`jnp.trapezoid`) -/
noncomputable def trapz (xarr yarr : Fin (n + 1) → α) : α :=
  lit 0.5 * sum (fun i => diff xarr i * (Jnp.tail yarr i + Jnp.init yarr i))

/-- utils.py:296-334 `cumulative_mstar_formed` -/
noncomputable def cumulative_mstar_formed (t_table sfh_table : Fin n → α) : Fin n → α :=
  let padded_t_table := zeros (n + 1)
  let padded_t_table := Jnp.setAt padded_t_table 0 (lit T_BIRTH_MIN)
  let padded_t_table := Jnp.setTail padded_t_table t_table
  let padded_sfh_table := zeros (n + 1)
  let padded_sfh_table := Jnp.setAt padded_sfh_table 0 (lit SFR_MIN)
  let padded_sfh_table := Jnp.setTail padded_sfh_table sfh_table
  fun i => Jnp.tail (cumtrapz padded_t_table padded_sfh_table) i * lit Utils.YEAR_PER_GYR

/-! ### jnp.interp -/

/-- the left end of the interpolation cell, as in `Jnp.interpCell` -/
noncomputable def interpCell (xp : Fin (n + 2) → α) (x : α) : Fin (n + 1) :=
  XFSed.interpCell (fun j => value (xp j)) (value x)

/-- `jnp.interp(x, xp, fp, left=left, right=right)`: as in `Jnp.interpLR`. -/
noncomputable def interpLR [Jnp.Dtype] (x : α) (xp fp : Fin (n + 2) → α) (left right : α) : α :=
  let i := interpCell xp x
  let df := take fp i.succ - take fp i.castSucc
  let dx := take xp i.succ - take xp i.castSucc
  let delta := x - take xp i.castSucc
  let dx0 : Prop := XFSed.abs (value dx) ≤ XF.fin Jnp.Dtype.interpEps
  let f := sel dx0 (take fp i.castSucc) (take fp i.castSucc + delta / sel dx0 (lit 1) dx * df)
  let f := sel (lt x (xp 0)) left f
  sel (lt (xp (Fin.last (n + 1))) x) right f

/-- `jnp.interp(x, xp, fp)` -/
noncomputable def interp [Jnp.Dtype] (x : α) (xp fp : Fin (n + 2) → α) : α := interpLR x xp fp (fp 0) (Jnp.last fp)

/-! ### sed -/

/-- stellar_age_weights.py:118-125 `_get_lgt_birth`, one age. -/
noncomputable def get_lgt_birth (t_obs lg_age : α) : α :=
  let t_birth := t_obs - exp10 lg_age
  let t_birth := sel (lt t_birth (lit T_BIRTH_MIN)) (lit T_BIRTH_MIN) t_birth
  log10 t_birth

/-- stellar_age_weights.py:128-163 `_get_lg_age_bin_edges` -/
noncomputable def get_lg_age_bin_edges (lg_ages : Fin (m + 3) → α) : Fin (m + 4) → α :=
  let dlgtau := jax_get_dt_array lg_ages
  let lg_age_bin_edges := zeros (m + 4)
  let lg_age_bin_edges := Jnp.setInit lg_age_bin_edges (fun i => lg_ages i - dlgtau i / lit 2)
  let dlowest := (lg_ages 1 - lg_ages 0) / lit 2
  let lowest := lg_ages 0 - dlowest
  let highest := Jnp.last lg_ages + Jnp.last dlgtau / lit 2
  let lg_age_bin_edges := Jnp.setAt lg_age_bin_edges 0 lowest
  let lg_age_bin_edges := Jnp.setAt lg_age_bin_edges (Fin.last (m + 3)) highest
  lg_age_bin_edges

/-- stellar_age_weights.py:166-183 `_calc_logsm_table_from_sfh_table` -/
noncomputable def calc_logsm_table_from_sfh_table (gal_t_table gal_sfr_table : Fin n → α) (sfr_min : α) : Fin n → α :=
  let gal_sfr_table := fun i => sel (lt (gal_sfr_table i) sfr_min) sfr_min (gal_sfr_table i)
  let gal_smh_table := cumulative_mstar_formed gal_t_table gal_sfr_table
  fun i => log10 (gal_smh_table i)

/-- stellar_age_weights.py:52-88 `_calc_age_weights_from_logsm_table` (second output) -/
noncomputable def calc_age_weights_from_logsm_table [Jnp.Dtype] (lgt_table logsm_table : Fin (n + 2) → α)
    (ssp_lg_age_gyr : Fin (m + 3) → α) (t_obs : α) : Fin (m + 3) → α :=
  let lg_age_bin_edges := get_lg_age_bin_edges ssp_lg_age_gyr
  let lgt_birth_bin_edges := fun i => get_lgt_birth t_obs (lg_age_bin_edges i)
  let logsm_at_t_birth_bin_edges := fun i => interp (lgt_birth_bin_edges i) lgt_table logsm_table
  let delta_mstar_at_t_birth := fun i => - diff (fun i => exp10 (logsm_at_t_birth_bin_edges i)) i
  fun i => delta_mstar_at_t_birth i / sum delta_mstar_at_t_birth

/-- stellar_age_weights.py:18-49 `calc_age_weights_from_sfh_table` -/
noncomputable def calc_age_weights_from_sfh_table [Jnp.Dtype] (gal_t_table gal_sfr_table : Fin (n + 2) → α)
    (ssp_lg_age_gyr : Fin (m + 3) → α) (t_obs : α) (sfr_min : α := lit SFR_MIN) : Fin (m + 3) → α :=
  let logsm_table := calc_logsm_table_from_sfh_table gal_t_table gal_sfr_table sfr_min
  let gal_lgt_table := fun i => log10 (gal_t_table i)
  calc_age_weights_from_logsm_table gal_lgt_table logsm_table ssp_lg_age_gyr t_obs

/-- metallicity_weights.py:26-51 `calc_lgmet_weights_from_lognormal_mdf` -/
noncomputable def calc_lgmet_weights_from_lognormal_mdf (gal_lgmet gal_lgmet_scatter : α) (ssp_lgmet : Fin (k + 3) → α) :
    Fin (k + 3) → α :=
  let lgmetbin_edges := get_bin_edges ssp_lgmet (lit LGMET_LO) (lit LGMET_HI)
  get_lgmet_weights_singlegal gal_lgmet gal_lgmet_scatter lgmetbin_edges

/-- metallicity_weights.py:54-128 `calc_lgmet_weights_from_lgmet_table` with `_calc_lgmet_at_ssp_lgage_table` -/
noncomputable def calc_lgmet_weights_from_lgmet_table [Jnp.Dtype] (gal_t_table gal_lgmet_table : Fin (n + 2) → α)
    (gal_lgmet_scatter : α) (ssp_lgmet : Fin (k + 3) → α) (ssp_lg_age_gyr : Fin m → α) (t_obs : α) :
    Fin (k + 3) → Fin m → α :=
  let lgt_table := fun i => log10 (gal_t_table i)
  let lgmet_at_ssp_lgages := fun i => interp (get_lgt_birth t_obs (ssp_lg_age_gyr i)) lgt_table gal_lgmet_table
  let lgmetbin_edges := get_bin_edges ssp_lgmet (lit LGMET_LO) (lit LGMET_HI)
  let lgmet_weight_matrix := fun i => get_lgmet_weights_singlegal (lgmet_at_ssp_lgages i) gal_lgmet_scatter lgmetbin_edges
  let lgmet_weight_matrix := fun i j => lgmet_weight_matrix i j / lit (m : ℝ)
  fun j i => lgmet_weight_matrix i j

theorem lgmet_table_apply [Jnp.Dtype] (gal_t_table gal_lgmet_table : Fin (n + 2) → α)
    (gal_lgmet_scatter : α) (ssp_lgmet : Fin (k + 3) → α) (ssp_lg_age_gyr : Fin m → α) (t_obs : α) (j : Fin (k + 3)) (i : Fin m) :
    calc_lgmet_weights_from_lgmet_table gal_t_table gal_lgmet_table gal_lgmet_scatter ssp_lgmet ssp_lg_age_gyr t_obs j i =
      get_lgmet_weights_singlegal (interp (get_lgt_birth t_obs (ssp_lg_age_gyr i)) (fun i => log10 (gal_t_table i)) gal_lgmet_table)
        gal_lgmet_scatter (get_bin_edges ssp_lgmet (lit LGMET_LO) (lit LGMET_HI)) j / lit (m : ℝ) := by
  unfold calc_lgmet_weights_from_lgmet_table
  rfl

/-- `weights.sum()` of a 2-d array -/
noncomputable def sum2 {a b : ℕ} (x : Fin a → Fin b → α) : α := sum fun i => sum fun j => x i j

/-- ssp_weights.py:80-90 and 147-157: the normalised outer product, here for metallicity weights per age. -/
noncomputable def ssp_weights {a b : ℕ} (lgmet_weights : Fin a → Fin b → α) (age_weights : Fin b → α) : Fin a → Fin b → α :=
  let weights := fun i j => lgmet_weights i j * age_weights j
  let total := sum2 weights
  fun i j => weights i j / total

/-- stellar_sed.py:120-124, 203-207 -/
noncomputable def mstar_obs [Jnp.Dtype] (gal_t_table gal_sfr_table : Fin (n + 2) → α) (t_obs sfr_min : α) : α :=
  let lgt_obs := log10 t_obs
  let lgt_table := fun i => log10 (gal_t_table i)
  let logsm_table := calc_logsm_table_from_sfh_table gal_t_table gal_sfr_table sfr_min
  let logsm_obs := interp lgt_obs lgt_table logsm_table
  exp10 logsm_obs

/-- stellar_sed.py:46-127 `calc_rest_sed_sfh_table_lognormal_mdf` (first output) -/
noncomputable def calc_rest_sed_sfh_table_lognormal_mdf [Jnp.Dtype] (gal_t_table gal_sfr_table : Fin (n + 2) → α)
    (gal_lgmet gal_lgmet_scatter : α) (ssp_lgmet : Fin (k + 3) → α) (ssp_lg_age_gyr : Fin (m + 3) → α)
    (ssp_flux : Fin (k + 3) → Fin (m + 3) → Fin w → α) (t_obs : α) (sfr_min : α := lit SFR_MIN) : Fin w → α :=
  let age_weights := calc_age_weights_from_sfh_table gal_t_table gal_sfr_table ssp_lg_age_gyr t_obs
  let lgmet_weights := calc_lgmet_weights_from_lognormal_mdf gal_lgmet gal_lgmet_scatter ssp_lgmet
  let weights := ssp_weights (fun i _ => lgmet_weights i) age_weights
  let sed_unit_mstar := fun l => sum2 fun i j => ssp_flux i j l * weights i j
  fun l => sed_unit_mstar l * mstar_obs gal_t_table gal_sfr_table t_obs sfr_min

/-- stellar_sed.py:130-210 `calc_rest_sed_sfh_table_met_table` (first output) -/
noncomputable def calc_rest_sed_sfh_table_met_table [Jnp.Dtype] (gal_t_table gal_sfr_table gal_lgmet_table : Fin (n + 2) → α)
    (gal_lgmet_scatter : α) (ssp_lgmet : Fin (k + 3) → α) (ssp_lg_age_gyr : Fin (m + 3) → α)
    (ssp_flux : Fin (k + 3) → Fin (m + 3) → Fin w → α) (t_obs : α) (sfr_min : α := lit SFR_MIN) : Fin w → α :=
  let age_weights := calc_age_weights_from_sfh_table gal_t_table gal_sfr_table ssp_lg_age_gyr t_obs
  let lgmet_weights := calc_lgmet_weights_from_lgmet_table gal_t_table gal_lgmet_table gal_lgmet_scatter ssp_lgmet
    ssp_lg_age_gyr t_obs
  let weights := ssp_weights lgmet_weights age_weights
  let sed_unit_mstar := fun l => sum2 fun i j => ssp_flux i j l * weights i j
  fun l => sed_unit_mstar l * mstar_obs gal_t_table gal_sfr_table t_obs sfr_min

/-! ### sfh/diffburst.py -/

/-- diffburst.py:104-108 `_zero_safe_normalize` -/
noncomputable def zero_safe_normalize (x : Fin n → α) : Fin n → α :=
  let s := sum x
  let s := sel (le s (lit 0)) (lit 1) s
  fun i => x i / s

/-- diffburst.py:111-123 `_pureburst_age_weights_from_params` -/
noncomputable def pureburst_age_weights_from_params (lgyr : Fin n → α) (lgyr_peak lgyr_max : α) : Fin n → α :=
  let dlgyr_support := lgyr_max - lgyr_peak
  let lgyr_min := lgyr_peak - dlgyr_support
  let twx0 := lit 0.5 * (lgyr_min + lgyr_max)
  let dlgyr := lgyr_max - lgyr_min
  let twh := dlgyr / lit 6
  let tw_gauss := fun i => triweight_gaussian (lgyr i) twx0 twh
  zero_safe_normalize tw_gauss

/-- diffburst.py:38-71 `calc_bursty_age_weights` (the three fields of `burst_params` as arguments) -/
noncomputable def calc_bursty_age_weights (lgfburst lgyr_peak lgyr_max : α) (smooth_age_weights ssp_lg_age_gyr : Fin n → α) :
    Fin n → α :=
  let ssp_lg_age_yr := fun i => ssp_lg_age_gyr i + lit 9.0
  let burst_weights := pureburst_age_weights_from_params ssp_lg_age_yr lgyr_peak lgyr_max
  let fb := exp10 lgfburst
  fun i => fb * burst_weights i + (lit 1 - fb) * smooth_age_weights i

/-- diffburst.py:169-175 `_get_lgyr_peak_from_u_lgyr_peak` -/
noncomputable def get_lgyr_peak_from_u_lgyr_peak (u_lgyr_peak : α) : α :=
  let lo := lit Diffburst.LGYR_PEAK_MIN
  let hi := lit (Diffburst.LGAGE_MAX - Diffburst.DLGAGE_MIN)
  let x0 := lit 0.5 * (hi + lo)
  sigmoid u_lgyr_peak x0 (lit Diffburst.LGAGE_K) lo hi

/-- diffburst.py:178-180 `_get_lgfburst_from_u_lgfburst` -/
noncomputable def get_lgfburst_from_u_lgfburst (u_lgfburst : α) : α :=
  sigmoid u_lgfburst (lit Diffburst.LGFB_X0) (lit Diffburst.LGFB_K) (lit Diffburst.LGFBURST_MIN) (lit Diffburst.LGFBURST_MAX)

/-- diffburst.py:188-193 `_get_lgyr_max_from_lgyr_peak` -/
noncomputable def get_lgyr_max_from_lgyr_peak (lgyr_peak u_lgyr_max : α) : α :=
  let lo := lgyr_peak + lit Diffburst.DLGAGE_MIN
  let hi := lit Diffburst.LGAGE_MAX
  let x0 := lit 0.5 * (hi + lo)
  sigmoid u_lgyr_max x0 (lit Diffburst.LGAGE_K) lo hi

/-- diffburst.py:74-101 `calc_bursty_age_weights_from_u_params` with :133-141 `_get_params_from_u_params` and :144-148
`_get_tburst_params_from_tburst_u_params` -/
noncomputable def calc_bursty_age_weights_from_u_params (u_lgfburst u_lgyr_peak u_lgyr_max : α)
    (smooth_age_weights ssp_lg_age_gyr : Fin n → α) : Fin n → α :=
  let lgfburst := get_lgfburst_from_u_lgfburst u_lgfburst
  let lgyr_peak := get_lgyr_peak_from_u_lgyr_peak u_lgyr_peak
  let lgyr_max := get_lgyr_max_from_lgyr_peak lgyr_peak u_lgyr_max
  calc_bursty_age_weights lgfburst lgyr_peak lgyr_max smooth_age_weights ssp_lg_age_gyr

/-! ### cosmology/flat_wcdm.py -/

/-- `jnp.linspace(start, stop, n+2)`, as in `Jnp.linspace` -/
noncomputable def linspace (start stop : α) (n : ℕ) : Fin (n + 2) → α := fun i =>
  if i = Fin.last (n + 1) then stop
  else start * (lit 1 - lit (i : ℝ) / lit ((n : ℝ) + 1)) + stop * (lit (i : ℝ) / lit ((n : ℝ) + 1))

/-- flat_wcdm.py:48-52 `_rho_de_z` -/
noncomputable def rho_de_z (z w0 wa : α) : α :=
  let a := lit 1.0 / (lit 1.0 + z)
  let de_z := pow a (-(lit 3.0) * (lit 1.0 + w0 + wa)) * exp (-(lit 3.0) * wa * (lit 1.0 - a))
  de_z

/-- flat_wcdm.py:55-61 `_Ez` -/
noncomputable def Ez (z Om0 w0 wa : α) : α :=
  let zp1 := lit 1.0 + z
  let Ode0 := lit 1.0 - Om0
  let t := Om0 * ipow zp1 3 + Ode0 * rho_de_z z w0 wa
  let E := sqrt t
  E

/-- flat_wcdm.py:64-66 `_integrand_oneOverEz` -/
noncomputable def integrand_oneOverEz (z Om0 w0 wa : α) : α := lit 1 / Ez z Om0 w0 wa

/-- flat_wcdm.py:74-100 `comoving_distance_to_z` -/
noncomputable def comoving_distance_to_z (redshift Om0 w0 wa h : α) : α :=
  let z_table := linspace (lit 0) redshift 254
  let integrand := fun i => integrand_oneOverEz (z_table i) Om0 w0 wa
  trapz z_table integrand * lit FlatWcdm.C_SPEED * lit 1e-5 / h

/-- flat_wcdm.py:107-129 `luminosity_distance_to_z` -/
noncomputable def luminosity_distance_to_z (redshift Om0 w0 wa h : α) : α :=
  comoving_distance_to_z redshift Om0 w0 wa h * (lit 1 + redshift)

/-- flat_wcdm.py:132-154 `angular_diameter_distance_to_z` -/
noncomputable def angular_diameter_distance_to_z (redshift Om0 w0 wa h : α) : α :=
  comoving_distance_to_z redshift Om0 w0 wa h / (lit 1 + redshift)

/-- flat_wcdm.py:157-182 `distance_modulus_to_z` -/
noncomputable def distance_modulus_to_z (redshift Om0 w0 wa h : α) : α :=
  let d_lum := luminosity_distance_to_z redshift Om0 w0 wa h
  let mu := lit 5.0 * log10 (d_lum * lit 1e5)
  mu

/-- flat_wcdm.py:185-189 `_hubble_time` -/
noncomputable def hubble_time (z Om0 w0 wa h : α) : α :=
  let E0 := Ez z Om0 w0 wa
  let htime := lit (1e-16 * FlatWcdm.MPC / FlatWcdm.YEAR) / h / E0
  htime

/-- flat_wcdm.py:192-218 `lookback_to_z` -/
noncomputable def lookback_to_z (redshift Om0 w0 wa h : α) : α :=
  let z_table := linspace (lit 0) redshift 510
  let integrand := fun i => lit 1 / Ez (z_table i) Om0 w0 wa / (lit 1 + z_table i)
  let res := trapz z_table integrand
  let th := hubble_time (lit 0.0) Om0 w0 wa h
  th * res

/-- flat_wcdm.py:221-245 `age_at_z0` (the redshift table is a constant) -/
noncomputable def age_at_z0 (Om0 w0 wa h : α) : α :=
  let z_table := fun i => (lit (Jnp.logspace 0 3 510 i - 1.0) : α)
  let integrand := fun i => lit 1 / Ez (z_table i) Om0 w0 wa / (lit 1 + z_table i)
  let res := trapz z_table integrand
  let th := hubble_time (lit 0.0) Om0 w0 wa h
  th * res

/-- flat_wcdm.py:248-252 `_age_at_z_kern` -/
noncomputable def age_at_z_kern (redshift Om0 w0 wa h : α) : α :=
  let t0 := age_at_z0 Om0 w0 wa h
  let tlook := lookback_to_z redshift Om0 w0 wa h
  t0 - tlook

/-- flat_wcdm.py:283-307 `rho_crit` -/
noncomputable def rho_crit (redshift Om0 w0 wa h : α) : α :=
  let rho_crit0 := lit FlatWcdm.RHO_CRIT0_KPC3_UNITY_H * h * h
  let rho_crit := rho_crit0 * ipow (Ez redshift Om0 w0 wa) 2
  rho_crit

/-- flat_wcdm.py:310-313 `_Om_at_z` -/
noncomputable def Om_at_z (z Om0 w0 wa : α) : α :=
  let E := Ez z Om0 w0 wa
  Om0 * ipow (lit 1.0 + z) 3 / E / E

/-- flat_wcdm.py:324-328 `_delta_vir`, one redshift -/
noncomputable def delta_vir (z Om0 w0 wa : α) : α :=
  let x := Om_at_z z Om0 w0 wa - lit 1.0
  let Delta := lit (18 * Real.pi ^ 2) + lit 82.0 * x - lit 39.0 * ipow x 2
  Delta

/-- flat_wcdm.py:331-360 `virial_dynamical_time`, one redshift -/
noncomputable def virial_dynamical_time (redshift Om0 w0 wa h : α) : α :=
  let delta := delta_vir redshift Om0 w0 wa
  let t_cross := lit ((2 : ℝ) ^ (1.5 : ℝ)) * hubble_time redshift Om0 w0 wa h * pow delta (lit (-0.5))
  t_cross

/-! ### photometry/photometry_kernels.py -/

/-- photometry_kernels.py:125-132 `_obs_flux_ssp` -/
noncomputable def obs_flux_ssp [Jnp.Dtype] (wave_spec_rest lum_spec : Fin (n + 2) → α)
    (wave_filter trans_filter : Fin (m + 1) → α) (z : α) : α :=
  let lum_zshift_phot := fun i => interpLR (wave_filter i) (fun j => wave_spec_rest j * (lit 1 + z)) lum_spec (lit 0) (lit 0)
  let integrand := fun i => trans_filter i * lum_zshift_phot i / wave_filter i
  let lum_filter := trapz wave_filter integrand
  lum_filter

/-- photometry_kernels.py:135-140 `_rest_flux_ssp` -/
noncomputable def rest_flux_ssp [Jnp.Dtype] (wave_spec_rest lum_spec : Fin (n + 2) → α)
    (wave_filter trans_filter : Fin (m + 1) → α) : α :=
  let lum_phot := fun i => interpLR (wave_filter i) wave_spec_rest lum_spec (lit 0) (lit 0)
  let integrand := fun i => trans_filter i * lum_phot i / wave_filter i
  let lum_filter := trapz wave_filter integrand
  lum_filter

/-- photometry_kernels.py:143-147 `_flux_ab0_at_10pc` -/
noncomputable def flux_ab0_at_10pc (wave_filter trans_filter : Fin (m + 1) → α) : α :=
  let integrand := fun i => trans_filter i * lit Photometry.AB0 / wave_filter i
  let lum_ab0_filter := trapz wave_filter integrand
  lum_ab0_filter

/-- photometry_kernels.py:62-65 `_cosmological_dimming` -/
noncomputable def cosmological_dimming (z Om0 w0 wa h : α) : α :=
  let dmod := distance_modulus_to_z z Om0 w0 wa h
  dmod - lit 2.5 * log10 (lit 1 + z)

/-- photometry_kernels.py:15-53 `calc_obs_mag` -/
noncomputable def calc_obs_mag [Jnp.Dtype] (wave_spec_rest lum_spec : Fin (n + 2) → α)
    (wave_filter trans_filter : Fin (m + 1) → α) (redshift Om0 w0 wa h : α) : α :=
  let flux_source := obs_flux_ssp wave_spec_rest lum_spec wave_filter trans_filter redshift
  let flux_ab0 := flux_ab0_at_10pc wave_filter trans_filter
  let mag_no_dimming := -(lit 2.5) * log10 (flux_source / flux_ab0)
  let dimming := cosmological_dimming redshift Om0 w0 wa h
  let obs_mag := mag_no_dimming + dimming
  obs_mag

/-- photometry_kernels.py:99-122 `calc_rest_flux` -/
noncomputable def calc_rest_flux [Jnp.Dtype] (wave_spec_rest lum_spec : Fin (n + 2) → α)
    (wave_filter trans_filter : Fin (m + 1) → α) : α :=
  let flux_source := rest_flux_ssp wave_spec_rest lum_spec wave_filter trans_filter
  let flux_ab0 := flux_ab0_at_10pc wave_filter trans_filter
  let rest_flux := flux_source / flux_ab0
  rest_flux

/-- photometry_kernels.py:75-96 `calc_rest_mag` -/
noncomputable def calc_rest_mag [Jnp.Dtype] (wave_spec_rest lum_spec : Fin (n + 2) → α)
    (wave_filter trans_filter : Fin (m + 1) → α) : α :=
  let rest_flux := calc_rest_flux wave_spec_rest lum_spec wave_filter trans_filter
  let rest_mag := -(lit 2.5) * log10 rest_flux
  rest_mag

end Dsps.Gen
