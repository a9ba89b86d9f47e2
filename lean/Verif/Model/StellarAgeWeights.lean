import Verif.Model.Utils

/-! Model of `/repo/dsps/sed/stellar_age_weights.py`.  Time tables have at least two entries (`jnp.interp`), age grids at
least three (`_jax_get_dt_array`). -/
namespace Dsps.StellarAgeWeights
open Jnp Dsps.Constants Dsps.Utils

variable {n m : ℕ}

/-- stellar_age_weights.py:118-125 `_get_lgt_birth`, one age. -/
noncomputable def get_lgt_birth (t_obs lg_age : ℝ) : ℝ :=
  let t_birth := t_obs - exp10 lg_age
  let t_birth := if t_birth < T_BIRTH_MIN then T_BIRTH_MIN else t_birth
  log10 t_birth

/-- stellar_age_weights.py:128-163 `_get_lg_age_bin_edges` -/
noncomputable def get_lg_age_bin_edges (lg_ages : Fin (m + 3) → ℝ) : Fin (m + 4) → ℝ :=
  let dlgtau := jax_get_dt_array lg_ages
  let lg_age_bin_edges := zeros (m + 4)
  let lg_age_bin_edges := setInit lg_age_bin_edges (fun i => lg_ages i - dlgtau i / 2)
  let dlowest := (lg_ages 1 - lg_ages 0) / 2
  let lowest := lg_ages 0 - dlowest
  let highest := last lg_ages + last dlgtau / 2
  let lg_age_bin_edges := setAt lg_age_bin_edges 0 lowest
  let lg_age_bin_edges := setAt lg_age_bin_edges (Fin.last (m + 3)) highest
  lg_age_bin_edges

/-- stellar_age_weights.py:166-183 `_calc_logsm_table_from_sfh_table` -/
noncomputable def calc_logsm_table_from_sfh_table (gal_t_table gal_sfr_table : Fin n → ℝ) (sfr_min : ℝ) :
    Fin n → ℝ :=
  let gal_sfr_table := fun i => if gal_sfr_table i < sfr_min then sfr_min else gal_sfr_table i
  let gal_smh_table := cumulative_mstar_formed gal_t_table gal_sfr_table
  fun i => log10 (gal_smh_table i)

/-- stellar_age_weights.py:52-88 `_calc_age_weights_from_logsm_table` -/
noncomputable def calc_age_weights_from_logsm_table [Dtype] (lgt_table logsm_table : Fin (n + 2) → ℝ)
    (ssp_lg_age_gyr : Fin (m + 3) → ℝ) (t_obs : ℝ) : (Fin (m + 3) → ℝ) × (Fin (m + 3) → ℝ) :=
  let lg_age_bin_edges := get_lg_age_bin_edges ssp_lg_age_gyr
  let lgt_birth_bin_edges := fun i => get_lgt_birth t_obs (lg_age_bin_edges i)
  let lgt_birth_bin_mids := fun i => get_lgt_birth t_obs (ssp_lg_age_gyr i)
  let logsm_at_t_birth_bin_edges := fun i => interp (lgt_birth_bin_edges i) lgt_table logsm_table
  let delta_mstar_at_t_birth := fun i => - diff (fun i => exp10 (logsm_at_t_birth_bin_edges i)) i
  let age_weights := fun i => delta_mstar_at_t_birth i / sum delta_mstar_at_t_birth
  (lgt_birth_bin_mids, age_weights)

/-- stellar_age_weights.py:18-49 `calc_age_weights_from_sfh_table` (public API; `sfr_min` defaults to `SFR_MIN`). -/
noncomputable def calc_age_weights_from_sfh_table [Dtype] (gal_t_table gal_sfr_table : Fin (n + 2) → ℝ)
    (ssp_lg_age_gyr : Fin (m + 3) → ℝ) (t_obs : ℝ) (sfr_min : ℝ := SFR_MIN) : Fin (m + 3) → ℝ :=
  let logsm_table := calc_logsm_table_from_sfh_table gal_t_table gal_sfr_table sfr_min
  let gal_lgt_table := fun i => log10 (gal_t_table i)
  (calc_age_weights_from_logsm_table gal_lgt_table logsm_table ssp_lg_age_gyr t_obs).2

/-- stellar_age_weights.py:91-115 `_get_linspace_time_tables` (100 points; the default `t0 = TODAY` is a parameter here). -/
noncomputable def get_linspace_time_tables (t0 : ℝ) : (Fin 100 → ℝ) × (Fin 100 → ℝ) × (Fin 100 → ℝ) :=
  let t_table := linspace T_BIRTH_MIN t0 98
  let lgt_table := fun i => log10 (t_table i)
  let dt_table := jax_get_dt_array (n := 97) t_table
  (t_table, lgt_table, dt_table)

end Dsps.StellarAgeWeights
