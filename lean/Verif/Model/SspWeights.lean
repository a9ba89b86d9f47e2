import Verif.Model.MetallicityWeights

/-! Model of `/repo/dsps/sed/ssp_weights.py` and `/repo/dsps/sed/stellar_sed.py`. -/
namespace Dsps.SspWeights
open Jnp Dsps.Constants Dsps.Utils Dsps.StellarAgeWeights Dsps.MetallicityWeights

variable {n m k w : ℕ}

/-- `weights.sum()` of a 2-d array -/
noncomputable def sum2 {a b : ℕ} (x : Fin a → Fin b → ℝ) : ℝ := sum fun i => sum fun j => x i j

/-- ssp_weights.py:25-28 `SSPWeights` (lognormal MDF: `lgmet_weights` is a vector) -/
structure SSPWeights (n_met n_ages : ℕ) (L : Type) where
  weights : Fin n_met → Fin n_ages → ℝ
  lgmet_weights : L
  age_weights : Fin n_ages → ℝ

/-- ssp_weights.py:31-90 `calc_ssp_weights_sfh_table_lognormal_mdf`.  (Note: no `sfr_min` argument: the age weights
always use the default `SFR_MIN`.) -/
noncomputable def calc_ssp_weights_sfh_table_lognormal_mdf [Dtype] (gal_t_table gal_sfr_table : Fin (n + 2) → ℝ)
    (gal_lgmet gal_lgmet_scatter : ℝ) (ssp_lgmet : Fin (k + 3) → ℝ) (ssp_lg_age_gyr : Fin (m + 3) → ℝ) (t_obs : ℝ) :
    SSPWeights (k + 3) (m + 3) (Fin (k + 3) → ℝ) :=
  let age_weights := calc_age_weights_from_sfh_table gal_t_table gal_sfr_table ssp_lg_age_gyr t_obs
  let lgmet_weights := calc_lgmet_weights_from_lognormal_mdf gal_lgmet gal_lgmet_scatter ssp_lgmet
  let weights := fun i j => lgmet_weights i * age_weights j
  let total := sum2 weights
  let weights := fun i j => weights i j / total
  ⟨weights, lgmet_weights, age_weights⟩

/-- ssp_weights.py:93-157 `calc_ssp_weights_sfh_table_met_table` -/
noncomputable def calc_ssp_weights_sfh_table_met_table [Dtype] (gal_t_table gal_sfr_table gal_lgmet_table : Fin (n + 2) → ℝ)
    (gal_lgmet_scatter : ℝ) (ssp_lgmet : Fin (k + 3) → ℝ) (ssp_lg_age_gyr : Fin (m + 3) → ℝ) (t_obs : ℝ) :
    SSPWeights (k + 3) (m + 3) (Fin (k + 3) → Fin (m + 3) → ℝ) :=
  let age_weights := calc_age_weights_from_sfh_table gal_t_table gal_sfr_table ssp_lg_age_gyr t_obs
  let lgmet_weights := calc_lgmet_weights_from_lgmet_table gal_t_table gal_lgmet_table gal_lgmet_scatter ssp_lgmet
    ssp_lg_age_gyr t_obs
  let weights := fun i j => lgmet_weights i j * age_weights j
  let total := sum2 weights
  let weights := fun i j => weights i j / total
  ⟨weights, lgmet_weights, age_weights⟩

/-- stellar_sed.py:23-43 `RestSED` -/
structure RestSED (n_met n_ages n_wave : ℕ) (L : Type) where
  rest_sed : Fin n_wave → ℝ
  weights : Fin n_met → Fin n_ages → ℝ
  lgmet_weights : L
  age_weights : Fin n_ages → ℝ

/-- stellar_sed.py:120-124 and 203-207: the mass normalisation of both SED functions. -/
noncomputable def mstar_obs [Dtype] (gal_t_table gal_sfr_table : Fin (n + 2) → ℝ) (t_obs sfr_min : ℝ) : ℝ :=
  let lgt_obs := log10 t_obs
  let lgt_table := fun i => log10 (gal_t_table i)
  let logsm_table := calc_logsm_table_from_sfh_table gal_t_table gal_sfr_table sfr_min
  let logsm_obs := interp lgt_obs lgt_table logsm_table
  exp10 logsm_obs

/-- stellar_sed.py:46-127 `calc_rest_sed_sfh_table_lognormal_mdf` -/
noncomputable def calc_rest_sed_sfh_table_lognormal_mdf [Dtype] (gal_t_table gal_sfr_table : Fin (n + 2) → ℝ)
    (gal_lgmet gal_lgmet_scatter : ℝ) (ssp_lgmet : Fin (k + 3) → ℝ) (ssp_lg_age_gyr : Fin (m + 3) → ℝ)
    (ssp_flux : Fin (k + 3) → Fin (m + 3) → Fin w → ℝ) (t_obs : ℝ) (sfr_min : ℝ := SFR_MIN) :
    RestSED (k + 3) (m + 3) w (Fin (k + 3) → ℝ) :=
  let W := calc_ssp_weights_sfh_table_lognormal_mdf gal_t_table gal_sfr_table gal_lgmet gal_lgmet_scatter ssp_lgmet
    ssp_lg_age_gyr t_obs
  let sed_unit_mstar := fun l => sum2 fun i j => ssp_flux i j l * W.weights i j
  let rest_sed := fun l => sed_unit_mstar l * mstar_obs gal_t_table gal_sfr_table t_obs sfr_min
  ⟨rest_sed, W.weights, W.lgmet_weights, W.age_weights⟩

/-- stellar_sed.py:130-210 `calc_rest_sed_sfh_table_met_table` -/
noncomputable def calc_rest_sed_sfh_table_met_table [Dtype] (gal_t_table gal_sfr_table gal_lgmet_table : Fin (n + 2) → ℝ)
    (gal_lgmet_scatter : ℝ) (ssp_lgmet : Fin (k + 3) → ℝ) (ssp_lg_age_gyr : Fin (m + 3) → ℝ)
    (ssp_flux : Fin (k + 3) → Fin (m + 3) → Fin w → ℝ) (t_obs : ℝ) (sfr_min : ℝ := SFR_MIN) :
    RestSED (k + 3) (m + 3) w (Fin (k + 3) → Fin (m + 3) → ℝ) :=
  let W := calc_ssp_weights_sfh_table_met_table gal_t_table gal_sfr_table gal_lgmet_table gal_lgmet_scatter ssp_lgmet
    ssp_lg_age_gyr t_obs
  let sed_unit_mstar := fun l => sum2 fun i j => ssp_flux i j l * W.weights i j
  let rest_sed := fun l => sed_unit_mstar l * mstar_obs gal_t_table gal_sfr_table t_obs sfr_min
  ⟨rest_sed, W.weights, W.lgmet_weights, W.age_weights⟩

end Dsps.SspWeights
