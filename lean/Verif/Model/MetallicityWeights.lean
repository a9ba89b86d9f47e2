import Verif.Model.StellarAgeWeights

/-! Model of `/repo/dsps/sed/metallicity_weights.py`. -/
namespace Dsps.MetallicityWeights
open Jnp Dsps.Constants Dsps.Utils Dsps.StellarAgeWeights

variable {n m k : ℕ}

open Classical in
/-- metallicity_weights.py:104-116 `_get_lgmet_weights_singlegal` -/
noncomputable def get_lgmet_weights_singlegal (gal_lgmet gal_lgmet_scatter : ℝ) (lgmetbin_edges : Fin (k + 2) → ℝ) :
    Fin (k + 1) → ℝ :=
  let tw_hist_results := triweighted_histogram gal_lgmet gal_lgmet_scatter lgmetbin_edges
  let tw_hist_results_sum := sum tw_hist_results
  let zmsk : Prop := tw_hist_results_sum = 0
  let tw_hist_results_sum := if zmsk then 1.0 else tw_hist_results_sum
  let weights := fun i => tw_hist_results i / tw_hist_results_sum
  fill_empty_weights_singlepoint gal_lgmet lgmetbin_edges weights

/-- metallicity_weights.py:119-120 `_get_lgmet_weights_singlegal_zh`: vmap over the first argument. -/
noncomputable def get_lgmet_weights_singlegal_zh (gal_lgmets : Fin m → ℝ) (gal_lgmet_scatter : ℝ)
    (lgmetbin_edges : Fin (k + 2) → ℝ) : Fin m → Fin (k + 1) → ℝ :=
  vmap (fun z => get_lgmet_weights_singlegal z gal_lgmet_scatter lgmetbin_edges) gal_lgmets

/-- metallicity_weights.py:123-128 `_calc_lgmet_at_ssp_lgage_table` -/
noncomputable def calc_lgmet_at_ssp_lgage_table [Dtype] (gal_t_table gal_lgmet_table : Fin (n + 2) → ℝ)
    (ssp_lg_age_gyr : Fin m → ℝ) (t_obs : ℝ) : Fin m → ℝ :=
  let lgt_table := fun i => log10 (gal_t_table i)
  let lgt_birth := fun i => get_lgt_birth t_obs (ssp_lg_age_gyr i)
  fun i => interp (lgt_birth i) lgt_table gal_lgmet_table

/-- metallicity_weights.py:26-51 `calc_lgmet_weights_from_lognormal_mdf` (public API) -/
noncomputable def calc_lgmet_weights_from_lognormal_mdf (gal_lgmet gal_lgmet_scatter : ℝ)
    (ssp_lgmet : Fin (k + 3) → ℝ) : Fin (k + 3) → ℝ :=
  let lgmetbin_edges := get_bin_edges ssp_lgmet LGMET_LO LGMET_HI
  get_lgmet_weights_singlegal gal_lgmet gal_lgmet_scatter lgmetbin_edges

/-- metallicity_weights.py:54-101 `calc_lgmet_weights_from_lgmet_table` (public API) -/
noncomputable def calc_lgmet_weights_from_lgmet_table [Dtype] (gal_t_table gal_lgmet_table : Fin (n + 2) → ℝ)
    (gal_lgmet_scatter : ℝ) (ssp_lgmet : Fin (k + 3) → ℝ) (ssp_lg_age_gyr : Fin m → ℝ) (t_obs : ℝ) :
    Fin (k + 3) → Fin m → ℝ :=
  let lgmet_at_ssp_lgages := calc_lgmet_at_ssp_lgage_table gal_t_table gal_lgmet_table ssp_lg_age_gyr t_obs
  let lgmetbin_edges := get_bin_edges ssp_lgmet LGMET_LO LGMET_HI
  let lgmet_weight_matrix := get_lgmet_weights_singlegal_zh lgmet_at_ssp_lgages gal_lgmet_scatter lgmetbin_edges
  let lgmet_weight_matrix := fun i j => lgmet_weight_matrix i j / (m : ℝ)
  fun j i => lgmet_weight_matrix i j

end Dsps.MetallicityWeights
