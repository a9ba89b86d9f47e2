import Verif.Nd
import Verif.Model.SspWeights

/-! The SED pipeline on arrays of arbitrary shape: `/repo/dsps/utils.py` (the functions the pipeline uses),
`sed/stellar_age_weights.py`, `sed/metallicity_weights.py`, `sed/ssp_weights.py`, `sed/stellar_sed.py`, statement by
statement as in the source, in the exception monad.  A Python scalar argument is an array of shape `[]`. -/
namespace Dsps.NdSed
open Nd Py Dsps.Constants

variable [Jnp.Dtype] [Edge]

/-- utils.py:15-28 `_jax_get_dt_array` -/
noncomputable def jax_get_dt_array (t : Arr ℝ) : Except PyErr (Arr ℝ) := do
  let dt := zerosLike t
  let lo ← sliceInit t
  let hi ← sliceTail t
  let tmids := map (0.5 * ·) (← map2 (· + ·) lo hi)
  let dtmids ← diff tmids
  let dt ← setInterior dt dtmids
  let t0 ← idx t 0
  let t1 ← idx t 1
  let t_lo ← map2 (· - ·) t0 (map (· / 2) (← map2 (· - ·) t1 t0))
  let tl ← idxLast t
  let dl ← idxLast dtmids
  let t_hi ← map2 (· + ·) tl (map (· / 2) dl)
  let dt ← setFirst dt (← map2 (· - ·) (← idx tmids 0) t_lo)
  setLast dt (← map2 (· - ·) t_hi (← idxLast tmids))

/-- utils.py:31-53 `_get_bin_edges` -/
noncomputable def get_bin_edges (bin_mids : Arr ℝ) (lowest_bin_edge highest_bin_edge : ℝ) : Except PyErr (Arr ℝ) := do
  let dbins ← jax_get_dt_array bin_mids
  let bin_edges := zeros1 (size dbins + 1)
  let bin_edges ← setInit bin_edges (← map2 (· - ·) bin_mids (map (· / 2) dbins))
  let bin_edges ← setFirst bin_edges (scal lowest_bin_edge)
  setLast bin_edges (scal highest_bin_edge)

/-- utils.py:56-63 `_tw_cuml_kern`.  The polynomial and the two `where`s act elementwise on the array `z`. -/
noncomputable def tw_cuml_kern (x m h : Arr ℝ) : Except PyErr (Arr ℝ) := do
  let z ← map2 (· / ·) (← map2 (· - ·) x m) h
  let val := map (fun z => -5 * z ^ 7 / 69984 + 7 * z ^ 5 / 2592 - 35 * z ^ 3 / 864 + 35 * z / 96 + 1 / 2) z
  let val ← where_ (map (· < -3) z) (scal 0) val
  where_ (map (· > 3) z) (scal 1) val

/-- utils.py:73-78 `_triweighted_histogram_kernel` -/
noncomputable def triweighted_histogram_kernel (x sig lo hi : Arr ℝ) : Except PyErr (Arr ℝ) := do
  let a ← tw_cuml_kern x lo sig
  let b ← tw_cuml_kern x hi sig
  map2 (· - ·) a b

/-- utils.py:81-102 `triweighted_histogram` (`_triweighted_histogram_vmap`: `in_axes=[None, None, 0, 0]`) -/
noncomputable def triweighted_histogram (x sig xbins : Arr ℝ) : Except PyErr (Arr ℝ) := do
  let lo ← sliceInit xbins
  let hi ← sliceTail xbins
  vmapTwo (fun lo hi => triweighted_histogram_kernel x sig lo hi) lo hi

/-- utils.py:119-133 `_fill_empty_weights_singlepoint` -/
noncomputable def fill_empty_weights_singlepoint (x bin_edges weights : Arr ℝ) : Except PyErr (Arr ℝ) := do
  let zmsk ← all0 (map (· = 0) weights)
  let lomsk ← map2 (· < ·) x (← idx bin_edges 0)
  let himsk ← map2 (· > ·) x (← idxLast bin_edges)
  let lores := zeros1 (size bin_edges - 1)
  let hires := zeros1 (size bin_edges - 1)
  let lores ← setFirst lores (scal 1.0)
  let hires ← setLast hires (scal 1.0)
  let weights ← where_ (← map2 (· ∧ ·) zmsk lomsk) lores weights
  where_ (← map2 (· ∧ ·) zmsk himsk) hires weights

/-- utils.py:257-275 `cumtrapz`.  `lax.scan` requires equal leading dimensions, and its carry must keep its type: the
running integral starts as a scalar, so anything but one-dimensional inputs raises. -/
noncomputable def cumtrapz (xarr yarr : Arr ℝ) : Except PyErr (Arr ℝ) := do
  let x0 ← idx xarr 0
  let y0 ← idx yarr 0
  match xarr.shape, yarr.shape with
  | [n], [n'] =>
    if n = n' then
      let out := (Jnp.scan Utils.cumtrapz_scan_func (x0.dat [], y0.dat [], (0 : ℝ))
        (fun i : Fin n => (xarr.dat [i.1], yarr.dat [i.1]))).2
      .ok ⟨[n], fun idx => match idx with
        | [i] => if h : i < n then out ⟨i, h⟩ else 0
        | _ => 0⟩
    else .error .valueError
  | _, _ => .error .typeError

/-- utils.py:296-334 `cumulative_mstar_formed` -/
noncomputable def cumulative_mstar_formed (t_table sfh_table : Arr ℝ) : Except PyErr (Arr ℝ) := do
  let n_t := size t_table
  let padded_t_table := zeros1 (n_t + 1)
  let padded_t_table ← setFirst padded_t_table (scal T_BIRTH_MIN)
  let padded_t_table ← setTail padded_t_table t_table
  let padded_sfh_table := zeros1 (n_t + 1)
  let padded_sfh_table ← setFirst padded_sfh_table (scal SFR_MIN)
  let padded_sfh_table ← setTail padded_sfh_table sfh_table
  let c ← sliceTail (← cumtrapz padded_t_table padded_sfh_table)
  return map (· * Utils.YEAR_PER_GYR) c

/-- stellar_age_weights.py:118-125 `_get_lgt_birth` -/
noncomputable def get_lgt_birth (t_obs lg_ages : Arr ℝ) : Except PyErr (Arr ℝ) := do
  let t_birth ← map2 (· - ·) t_obs (map Jnp.exp10 lg_ages)
  let t_birth ← where_ (map (· < T_BIRTH_MIN) t_birth) (scal T_BIRTH_MIN) t_birth
  return map Jnp.log10 t_birth

/-- stellar_age_weights.py:128-163 `_get_lg_age_bin_edges` -/
noncomputable def get_lg_age_bin_edges (lg_ages : Arr ℝ) : Except PyErr (Arr ℝ) := do
  let dlgtau ← jax_get_dt_array lg_ages
  let edges := zeros1 (size dlgtau + 1)
  let edges ← setInit edges (← map2 (· - ·) lg_ages (map (· / 2) dlgtau))
  let a0 ← idx lg_ages 0
  let a1 ← idx lg_ages 1
  let dlowest := map (· / 2) (← map2 (· - ·) a1 a0)
  let lowest ← map2 (· - ·) a0 dlowest
  let highest ← map2 (· + ·) (← idxLast lg_ages) (map (· / 2) (← idxLast dlgtau))
  let edges ← setFirst edges lowest
  setLast edges highest

/-- stellar_age_weights.py:166-183 `_calc_logsm_table_from_sfh_table` -/
noncomputable def calc_logsm_table_from_sfh_table (gal_t_table gal_sfr_table sfr_min : Arr ℝ) :
    Except PyErr (Arr ℝ) := do
  let gal_sfr_table ← where_ (← map2 (· < ·) gal_sfr_table sfr_min) sfr_min gal_sfr_table
  let gal_smh_table ← cumulative_mstar_formed gal_t_table gal_sfr_table
  return map Jnp.log10 gal_smh_table

/-- stellar_age_weights.py:52-88 `_calc_age_weights_from_logsm_table` -/
noncomputable def calc_age_weights_from_logsm_table (lgt_table logsm_table ssp_lg_age_gyr t_obs : Arr ℝ) :
    Except PyErr (Arr ℝ × Arr ℝ) := do
  let lg_age_bin_edges ← get_lg_age_bin_edges ssp_lg_age_gyr
  let lgt_birth_bin_edges ← get_lgt_birth t_obs lg_age_bin_edges
  let lgt_birth_bin_mids ← get_lgt_birth t_obs ssp_lg_age_gyr
  let logsm_at_t_birth_bin_edges ← interp lgt_birth_bin_edges lgt_table logsm_table
  let delta_mstar_at_t_birth := map (- ·) (← diff (map Jnp.exp10 logsm_at_t_birth_bin_edges))
  let age_weights ← map2 (· / ·) delta_mstar_at_t_birth (sumAll delta_mstar_at_t_birth)
  return (lgt_birth_bin_mids, age_weights)

/-- stellar_age_weights.py:18-49 `calc_age_weights_from_sfh_table` -/
noncomputable def calc_age_weights_from_sfh_table (gal_t_table gal_sfr_table ssp_lg_age_gyr t_obs : Arr ℝ)
    (sfr_min : Arr ℝ := scal SFR_MIN) : Except PyErr (Arr ℝ) := do
  let logsm_table ← calc_logsm_table_from_sfh_table gal_t_table gal_sfr_table sfr_min
  let gal_lgt_table := map Jnp.log10 gal_t_table
  let r ← calc_age_weights_from_logsm_table gal_lgt_table logsm_table ssp_lg_age_gyr t_obs
  return r.2

/-- metallicity_weights.py:104-116 `_get_lgmet_weights_singlegal` -/
noncomputable def get_lgmet_weights_singlegal (gal_lgmet gal_lgmet_scatter lgmetbin_edges : Arr ℝ) :
    Except PyErr (Arr ℝ) := do
  let tw_hist_results ← triweighted_histogram gal_lgmet gal_lgmet_scatter lgmetbin_edges
  let tw_hist_results_sum ← sum0 tw_hist_results
  let zmsk := map (· = 0) tw_hist_results_sum
  let tw_hist_results_sum ← where_ zmsk (scal 1.0) tw_hist_results_sum
  let weights ← map2 (· / ·) tw_hist_results tw_hist_results_sum
  fill_empty_weights_singlepoint gal_lgmet lgmetbin_edges weights

/-- metallicity_weights.py:119-120 `_get_lgmet_weights_singlegal_zh` -/
noncomputable def get_lgmet_weights_singlegal_zh (gal_lgmets gal_lgmet_scatter lgmetbin_edges : Arr ℝ) :
    Except PyErr (Arr ℝ) :=
  vmap (fun z => get_lgmet_weights_singlegal z gal_lgmet_scatter lgmetbin_edges) gal_lgmets

/-- metallicity_weights.py:123-128 `_calc_lgmet_at_ssp_lgage_table` -/
noncomputable def calc_lgmet_at_ssp_lgage_table (gal_t_table gal_lgmet_table ssp_lg_age_gyr t_obs : Arr ℝ) :
    Except PyErr (Arr ℝ) := do
  let lgt_table := map Jnp.log10 gal_t_table
  let lgt_birth ← get_lgt_birth t_obs ssp_lg_age_gyr
  interp lgt_birth lgt_table gal_lgmet_table

/-- metallicity_weights.py:26-51 `calc_lgmet_weights_from_lognormal_mdf` -/
noncomputable def calc_lgmet_weights_from_lognormal_mdf (gal_lgmet gal_lgmet_scatter ssp_lgmet : Arr ℝ) :
    Except PyErr (Arr ℝ) := do
  let lgmetbin_edges ← get_bin_edges ssp_lgmet LGMET_LO LGMET_HI
  get_lgmet_weights_singlegal gal_lgmet gal_lgmet_scatter lgmetbin_edges

/-- metallicity_weights.py:54-101 `calc_lgmet_weights_from_lgmet_table` -/
noncomputable def calc_lgmet_weights_from_lgmet_table
    (gal_t_table gal_lgmet_table gal_lgmet_scatter ssp_lgmet ssp_lg_age_gyr t_obs : Arr ℝ) :
    Except PyErr (Arr ℝ) := do
  let lgmet_at_ssp_lgages ← calc_lgmet_at_ssp_lgage_table gal_t_table gal_lgmet_table ssp_lg_age_gyr t_obs
  let lgmetbin_edges ← get_bin_edges ssp_lgmet LGMET_LO LGMET_HI
  let m ← get_lgmet_weights_singlegal_zh lgmet_at_ssp_lgages gal_lgmet_scatter lgmetbin_edges
  let m := map (· / (size ssp_lg_age_gyr : ℝ)) m
  swap01 m

/-- ssp_weights.py:25-28 `SSPWeights` -/
structure SSPWeights where
  weights : Arr ℝ
  lgmet_weights : Arr ℝ
  age_weights : Arr ℝ

/-- ssp_weights.py:31-90 `calc_ssp_weights_sfh_table_lognormal_mdf` -/
noncomputable def calc_ssp_weights_sfh_table_lognormal_mdf
    (gal_t_table gal_sfr_table gal_lgmet gal_lgmet_scatter ssp_lgmet ssp_lg_age_gyr t_obs : Arr ℝ) :
    Except PyErr SSPWeights := do
  let age_weights ← calc_age_weights_from_sfh_table gal_t_table gal_sfr_table ssp_lg_age_gyr t_obs
  let lgmet_weights ← calc_lgmet_weights_from_lognormal_mdf gal_lgmet gal_lgmet_scatter ssp_lgmet
  let weights ← map2 (· * ·) (← reshape lgmet_weights [none, some 1]) (← reshape age_weights [some 1, none])
  let weights ← map2 (· / ·) weights (sumAll weights)
  return ⟨weights, lgmet_weights, age_weights⟩

/-- ssp_weights.py:93-157 `calc_ssp_weights_sfh_table_met_table` -/
noncomputable def calc_ssp_weights_sfh_table_met_table
    (gal_t_table gal_sfr_table gal_lgmet_table gal_lgmet_scatter ssp_lgmet ssp_lg_age_gyr t_obs : Arr ℝ) :
    Except PyErr SSPWeights := do
  let age_weights ← calc_age_weights_from_sfh_table gal_t_table gal_sfr_table ssp_lg_age_gyr t_obs
  let lgmet_weights ← calc_lgmet_weights_from_lgmet_table gal_t_table gal_lgmet_table gal_lgmet_scatter ssp_lgmet
    ssp_lg_age_gyr t_obs
  let weights ← map2 (· * ·) lgmet_weights (← reshape age_weights [some 1, none])
  let weights ← map2 (· / ·) weights (sumAll weights)
  return ⟨weights, lgmet_weights, age_weights⟩

/-- stellar_sed.py:23-43 `RestSED` -/
structure RestSED where
  rest_sed : Arr ℝ
  weights : Arr ℝ
  lgmet_weights : Arr ℝ
  age_weights : Arr ℝ

/-- stellar_sed.py:115-127 and 198-210: what both SED functions do with the weights.  `n_met, n_ages = weights.shape`
raises unless `weights` is two-dimensional. -/
noncomputable def sed_from_weights (W : SSPWeights) (gal_t_table gal_sfr_table ssp_flux t_obs sfr_min : Arr ℝ) :
    Except PyErr RestSED := do
  let (n_met, n_ages) ← match W.weights.shape with
    | [a, b] => Except.ok (a, b)
    | _ => Except.error PyErr.valueError
  let sed_unit_mstar ← sum01 (← map2 (· * ·) ssp_flux (← reshape W.weights [some n_met, some n_ages, some 1]))
  let lgt_obs := map Jnp.log10 t_obs
  let lgt_table := map Jnp.log10 gal_t_table
  let logsm_table ← calc_logsm_table_from_sfh_table gal_t_table gal_sfr_table sfr_min
  let logsm_obs ← interp lgt_obs lgt_table logsm_table
  let mstar_obs := map Jnp.exp10 logsm_obs
  let rest_sed ← map2 (· * ·) sed_unit_mstar mstar_obs
  return ⟨rest_sed, W.weights, W.lgmet_weights, W.age_weights⟩

/-- stellar_sed.py:46-127 `calc_rest_sed_sfh_table_lognormal_mdf` -/
noncomputable def calc_rest_sed_sfh_table_lognormal_mdf
    (gal_t_table gal_sfr_table gal_lgmet gal_lgmet_scatter ssp_lgmet ssp_lg_age_gyr ssp_flux t_obs : Arr ℝ)
    (sfr_min : Arr ℝ := scal SFR_MIN) : Except PyErr RestSED := do
  let W ← calc_ssp_weights_sfh_table_lognormal_mdf gal_t_table gal_sfr_table gal_lgmet gal_lgmet_scatter ssp_lgmet
    ssp_lg_age_gyr t_obs
  sed_from_weights W gal_t_table gal_sfr_table ssp_flux t_obs sfr_min

/-- stellar_sed.py:130-210 `calc_rest_sed_sfh_table_met_table` -/
noncomputable def calc_rest_sed_sfh_table_met_table
    (gal_t_table gal_sfr_table gal_lgmet_table gal_lgmet_scatter ssp_lgmet ssp_lg_age_gyr ssp_flux t_obs : Arr ℝ)
    (sfr_min : Arr ℝ := scal SFR_MIN) : Except PyErr RestSED := do
  let W ← calc_ssp_weights_sfh_table_met_table gal_t_table gal_sfr_table gal_lgmet_table gal_lgmet_scatter ssp_lgmet
    ssp_lg_age_gyr t_obs
  sed_from_weights W gal_t_table gal_sfr_table ssp_flux t_obs sfr_min

end Dsps.NdSed
