import Verif.Model.StellarAgeWeights
import Verif.Model.MetallicityWeights

/-! Dtype layer: the grid functions applied to an integer array (`np.arange(...)`, a list of whole numbers, …) as well as to a
float array.  `jnp.zeros_like(t)` has the dtype of `t`; `a.at[i].set(v)` converts `v` to the dtype of `a`; arithmetic with a
Python float and true division give floats.  Not modelled: overflow of the integer type. -/
namespace Dsps.IntGrid
open Jnp Dsps.Constants

variable {n k m : ℕ}

/-- A one-dimensional array of integers or of floats. -/
inductive Grid (n : ℕ) where
  | int (v : Fin n → ℤ)
  | flt (v : Fin n → ℝ)

/-- The numbers in the array. -/
def Grid.val : Grid n → Fin n → ℝ
  | .int v => fun i => (v i : ℝ)
  | .flt v => v

/-- Conversion of a float to an integer dtype (XLA `ConvertElementType`): towards zero. -/
noncomputable def trunc (x : ℝ) : ℤ := if 0 ≤ x then ⌊x⌋ else ⌈x⌉

/-- `jnp.zeros_like(t)` -/
def zeros_like : Grid n → Grid n
  | .int _ => .int fun _ => 0
  | .flt _ => .flt fun _ => 0

/-- `a.at[1:-1].set(v)` for a float array `v` -/
noncomputable def setInterior (a : Grid (n + 2)) (v : Fin n → ℝ) : Grid (n + 2) :=
  match a with
  | .int a => .int (Jnp.setInterior a fun i => trunc (v i))
  | .flt a => .flt (Jnp.setInterior a v)

/-- `a.at[i].set(v)` for a float `v` -/
noncomputable def setAt (a : Grid n) (i : Fin n) (v : ℝ) : Grid n :=
  match a with
  | .int a => .int (Jnp.setAt a i (trunc v))
  | .flt a => .flt (Jnp.setAt a i v)

/-- utils.py:15-28 `_jax_get_dt_array` -/
noncomputable def jax_get_dt_array (t : Grid (n + 3)) : Grid (n + 3) :=
  let dt := zeros_like t
  let tmids : Fin (n + 2) → ℝ := fun i => 0.5 * (init t.val i + tail t.val i)
  let dtmids : Fin (n + 1) → ℝ := diff tmids
  let dt := setInterior dt dtmids
  let t_lo := t.val 0 - (t.val 1 - t.val 0) / 2
  let t_hi := last t.val + last dtmids / 2
  let dt := setAt dt 0 (tmids 0 - t_lo)
  let dt := setAt dt (Fin.last (n + 2)) (t_hi - last tmids)
  dt

/-- utils.py:31-53 `_get_bin_edges`: `jnp.zeros(n)` is a float array -/
noncomputable def get_bin_edges (bin_mids : Grid (n + 3)) (lowest_bin_edge highest_bin_edge : ℝ) : Fin (n + 4) → ℝ :=
  let dbins := jax_get_dt_array bin_mids
  let bin_edges := zeros (n + 4)
  let bin_edges := setInit bin_edges (fun i => bin_mids.val i - dbins.val i / 2)
  let bin_edges := Jnp.setAt bin_edges 0 lowest_bin_edge
  let bin_edges := Jnp.setAt bin_edges (Fin.last (n + 3)) highest_bin_edge
  bin_edges

/-- stellar_age_weights.py:128-163 `_get_lg_age_bin_edges` -/
noncomputable def get_lg_age_bin_edges (lg_ages : Grid (m + 3)) : Fin (m + 4) → ℝ :=
  let dlgtau := jax_get_dt_array lg_ages
  let lg_age_bin_edges := zeros (m + 4)
  let lg_age_bin_edges := setInit lg_age_bin_edges (fun i => lg_ages.val i - dlgtau.val i / 2)
  let dlowest := (lg_ages.val 1 - lg_ages.val 0) / 2
  let lowest := lg_ages.val 0 - dlowest
  let highest := last lg_ages.val + last dlgtau.val / 2
  let lg_age_bin_edges := Jnp.setAt lg_age_bin_edges 0 lowest
  let lg_age_bin_edges := Jnp.setAt lg_age_bin_edges (Fin.last (m + 3)) highest
  lg_age_bin_edges

/-- metallicity_weights.py:26-51 `calc_lgmet_weights_from_lognormal_mdf` -/
noncomputable def calc_lgmet_weights_from_lognormal_mdf (gal_lgmet gal_lgmet_scatter : ℝ) (ssp_lgmet : Grid (k + 3)) :
    Fin (k + 3) → ℝ :=
  let lgmetbin_edges := get_bin_edges ssp_lgmet LGMET_LO LGMET_HI
  MetallicityWeights.get_lgmet_weights_singlegal gal_lgmet gal_lgmet_scatter lgmetbin_edges

/-- utils.py:296-334 `cumulative_mstar_formed`: both padded tables are float arrays -/
noncomputable def cumulative_mstar_formed (t_table sfh_table : Grid n) : Fin n → ℝ :=
  let padded_t_table := zeros (n + 1)
  let padded_t_table := Jnp.setAt padded_t_table 0 T_BIRTH_MIN
  let padded_t_table := setTail padded_t_table t_table.val
  let padded_sfh_table := zeros (n + 1)
  let padded_sfh_table := Jnp.setAt padded_sfh_table 0 SFR_MIN
  let padded_sfh_table := setTail padded_sfh_table sfh_table.val
  fun i => tail (Utils.cumtrapz padded_t_table padded_sfh_table) i * Utils.YEAR_PER_GYR

/-- stellar_age_weights.py:166-183 `_calc_logsm_table_from_sfh_table`: `jnp.where` with the float `sfr_min` gives a float array -/
noncomputable def calc_logsm_table_from_sfh_table (gal_t_table gal_sfr_table : Grid n) (sfr_min : ℝ) : Fin n → ℝ :=
  let gal_sfr_table := fun i => if gal_sfr_table.val i < sfr_min then sfr_min else gal_sfr_table.val i
  let gal_smh_table := cumulative_mstar_formed gal_t_table (.flt gal_sfr_table)
  fun i => log10 (gal_smh_table i)

/-- stellar_age_weights.py:18-88 `calc_age_weights_from_sfh_table` and `_calc_age_weights_from_logsm_table` (without the bin
mid-points, which the weights do not use) -/
noncomputable def calc_age_weights_from_sfh_table [Dtype] (gal_t_table gal_sfr_table : Grid (n + 2))
    (ssp_lg_age_gyr : Grid (m + 3)) (t_obs : ℝ) (sfr_min : ℝ := SFR_MIN) : Fin (m + 3) → ℝ :=
  let logsm_table := calc_logsm_table_from_sfh_table gal_t_table gal_sfr_table sfr_min
  let lgt_table := fun i => log10 (gal_t_table.val i)
  let lg_age_bin_edges := get_lg_age_bin_edges ssp_lg_age_gyr
  let lgt_birth_bin_edges := fun i => StellarAgeWeights.get_lgt_birth t_obs (lg_age_bin_edges i)
  let logsm_at_t_birth_bin_edges := fun i => interp (lgt_birth_bin_edges i) lgt_table logsm_table
  let delta_mstar_at_t_birth := fun i => - diff (fun i => exp10 (logsm_at_t_birth_bin_edges i)) i
  let age_weights := fun i => delta_mstar_at_t_birth i / sum delta_mstar_at_t_birth
  age_weights

end Dsps.IntGrid
