import Verif.Model.Rounded

/-! Age weights, metallicity weights, SEDs in machine arithmetic (`Verif/Fl.lean`), operation by operation.  `v` is the accuracy of
the library functions `log10` and `10**x`. -/
namespace Dsps.Rounded
open Jnp Fl Dsps.Constants

variable (A : Arith) (v : ℝ) {n m k w : ℕ}

/-- `jnp.log10(x)`: error `v`, absolute for results below 1 in size, relative above. -/
noncomputable def log10 (x : ℝ) : Set ℝ := {l | |l - Jnp.log10 x| ≤ v * max 1 |Jnp.log10 x|}

/-- `10**x`: relative error `v`. -/
noncomputable def exp10 (x : ℝ) : Set ℝ := {y | |y - Jnp.exp10 x| ≤ v * Jnp.exp10 x}

/-- utils.py:15-28 `_jax_get_dt_array` -/
noncomputable def jax_get_dt_array (t : Fin (n + 3) → ℝ) : Set (Fin (n + 3) → ℝ) :=
  {out | ∃ s ∈ vec fun i => A.add (init t i) (tail t i), ∃ tmids ∈ vec fun i : Fin (n + 2) => A.mul 0.5 (s i),
    ∃ dtmids ∈ vec fun i : Fin (n + 1) => A.sub (tail tmids i) (init tmids i),
    ∃ a ∈ A.sub (t 1) (t 0), ∃ b ∈ A.div a 2, ∃ t_lo ∈ A.sub (t 0) b,
    ∃ c ∈ A.div (last dtmids) 2, ∃ t_hi ∈ A.add (last t) c,
    ∃ d0 ∈ A.sub (tmids 0) t_lo, ∃ d1 ∈ A.sub t_hi (last tmids),
    out = setAt (setAt (setInterior (zeros (n + 3)) dtmids) 0 d0) (Fin.last (n + 2)) d1}

/-- stellar_age_weights.py:128-163 `_get_lg_age_bin_edges` -/
noncomputable def get_lg_age_bin_edges (lg_ages : Fin (m + 3) → ℝ) : Set (Fin (m + 4) → ℝ) :=
  {out | ∃ dlgtau ∈ jax_get_dt_array A lg_ages, ∃ h ∈ vec fun i => A.div (dlgtau i) 2,
    ∃ lo ∈ vec fun i => A.sub (lg_ages i) (h i),
    ∃ a ∈ A.sub (lg_ages 1) (lg_ages 0), ∃ dlowest ∈ A.div a 2, ∃ lowest ∈ A.sub (lg_ages 0) dlowest,
    ∃ c ∈ A.div (last dlgtau) 2, ∃ highest ∈ A.add (last lg_ages) c,
    out = setAt (setAt (setInit (zeros (m + 4)) lo) 0 lowest) (Fin.last (m + 3)) highest}

/-- stellar_age_weights.py:118-125 `_get_lgt_birth`, one age.  (`T_BIRTH_MIN` is converted to the dtype of the array.) -/
noncomputable def get_lgt_birth (t_obs lg_age : ℝ) : Set ℝ :=
  {out | ∃ age ∈ exp10 v lg_age, ∃ t_birth ∈ A.sub t_obs age, ∃ t_min ∈ A.rnd T_BIRTH_MIN,
    out ∈ log10 v (if t_birth < t_min then t_min else t_birth)}

/-- stellar_age_weights.py:166-183 `_calc_logsm_table_from_sfh_table` (`sfr_min` is converted to the dtype of the array) -/
noncomputable def calc_logsm_table_from_sfh_table (gal_t_table gal_sfr_table : Fin n → ℝ) (sfr_min : ℝ) : Set (Fin n → ℝ) :=
  {out | ∃ floor ∈ A.rnd sfr_min,
    ∃ gal_smh_table ∈ cumulative_mstar_formed A gal_t_table
      (fun i => if gal_sfr_table i < floor then floor else gal_sfr_table i),
    out ∈ vec fun i => log10 v (gal_smh_table i)}

/-- `jnp.interp(x, xp, fp)` in machine arithmetic -/
noncomputable def interp [Dtype] (x : ℝ) (xp fp : Fin (n + 2) → ℝ) : Set ℝ :=
  {out | (x > last xp ∧ out = last fp) ∨ (¬ x > last xp ∧ x < xp 0 ∧ out = fp 0) ∨
    (¬ x > last xp ∧ ¬ x < xp 0 ∧ out ∈ interpBody A x xp fp)}

/-- stellar_age_weights.py:52-88 `_calc_age_weights_from_logsm_table` (second component); `d`: longest chain of additions in the
sum. -/
noncomputable def calc_age_weights_from_logsm_table [Dtype] (d : ℕ) (lgt_table logsm_table : Fin (n + 2) → ℝ)
    (ssp_lg_age_gyr : Fin (m + 3) → ℝ) (t_obs : ℝ) : Set (Fin (m + 3) → ℝ) :=
  {out | ∃ lg_age_bin_edges ∈ get_lg_age_bin_edges A ssp_lg_age_gyr,
    ∃ lgt_birth_bin_edges ∈ vec fun i => get_lgt_birth A v t_obs (lg_age_bin_edges i),
    ∃ logsm_at_t_birth_bin_edges ∈ vec fun i => interp A (lgt_birth_bin_edges i) lgt_table logsm_table,
    ∃ mstar ∈ vec fun i => exp10 v (logsm_at_t_birth_bin_edges i),
    ∃ diff ∈ vec fun i : Fin (m + 3) => A.sub (tail mstar i) (init mstar i),
    out ∈ normalize A d fun i => -diff i}

/-- stellar_age_weights.py:18-49 `calc_age_weights_from_sfh_table` -/
noncomputable def calc_age_weights_from_sfh_table [Dtype] (d : ℕ) (gal_t_table gal_sfr_table : Fin (n + 2) → ℝ)
    (ssp_lg_age_gyr : Fin (m + 3) → ℝ) (t_obs sfr_min : ℝ) : Set (Fin (m + 3) → ℝ) :=
  {out | ∃ logsm_table ∈ calc_logsm_table_from_sfh_table A v gal_t_table gal_sfr_table sfr_min,
    ∃ gal_lgt_table ∈ vec fun i => log10 v (gal_t_table i),
    out ∈ calc_age_weights_from_logsm_table A v d gal_lgt_table logsm_table ssp_lg_age_gyr t_obs}

/-- stellar_sed.py:120-124 and 203-207: the mass normalisation of both SED functions. -/
noncomputable def mstar_obs [Dtype] (gal_t_table gal_sfr_table : Fin (n + 2) → ℝ) (t_obs sfr_min : ℝ) : Set ℝ :=
  {out | ∃ lgt_obs ∈ log10 v t_obs, ∃ lgt_table ∈ vec fun i => log10 v (gal_t_table i),
    ∃ logsm_table ∈ calc_logsm_table_from_sfh_table A v gal_t_table gal_sfr_table sfr_min,
    ∃ logsm_obs ∈ interp A lgt_obs lgt_table logsm_table, out ∈ exp10 v logsm_obs}

/-! ### metallicity weights -/

/-- utils.py:31-53 `_get_bin_edges`.  (`LGMET_LO` = -10, `LGMET_HI` = 10 are machine numbers.) -/
noncomputable def get_bin_edges (bin_mids : Fin (n + 3) → ℝ) (lowest_bin_edge highest_bin_edge : ℝ) : Set (Fin (n + 4) → ℝ) :=
  {out | ∃ dbins ∈ jax_get_dt_array A bin_mids, ∃ h ∈ vec fun i => A.div (dbins i) 2, ∃ lo ∈ vec fun i => A.sub (bin_mids i) (h i),
    out = setAt (setAt (setInit (zeros (n + 4)) lo) 0 lowest_bin_edge) (Fin.last (n + 3)) highest_bin_edge}

/-- `z**k` for a literal integer `k ≥ 1` (JAX's `integer_pow`): a product of `k` factors `z`, in any association. -/
inductive IntPow (z : ℝ) : ℕ → ℝ → Prop
  | one : IntPow z 1 z
  | mul {i j : ℕ} {a b r : ℝ} : IntPow z i a → IntPow z j b → r ∈ A.mul a b → IntPow z (i + j) r

/-- utils.py:56-63 `_tw_cuml_kern` -/
noncomputable def tw_cuml_kern (x m h : ℝ) : Set ℝ :=
  {out | ∃ d ∈ A.sub x m, ∃ z ∈ A.div d h, ∃ z7, IntPow A z 7 z7 ∧ ∃ z5, IntPow A z 5 z5 ∧ ∃ z3, IntPow A z 3 z3 ∧
    ∃ a7 ∈ A.mul (-5) z7, ∃ b7 ∈ A.div a7 69984, ∃ a5 ∈ A.mul 7 z5, ∃ b5 ∈ A.div a5 2592, ∃ a3 ∈ A.mul 35 z3, ∃ b3 ∈ A.div a3 864,
    ∃ a1 ∈ A.mul 35 z, ∃ b1 ∈ A.div a1 96, ∃ s1 ∈ A.add b7 b5, ∃ s2 ∈ A.sub s1 b3, ∃ s3 ∈ A.add s2 b1, ∃ val ∈ A.add s3 (1 / 2),
    out = if z > 3 then 1 else if z < -3 then 0 else val}

/-- utils.py:73-102 `_triweighted_histogram_kernel`, `triweighted_histogram` -/
noncomputable def triweighted_histogram (x sig : ℝ) (xbins : Fin (n + 1) → ℝ) : Set (Fin n → ℝ) :=
  {out | ∃ a ∈ vec fun i => tw_cuml_kern A x (init xbins i) sig, ∃ b ∈ vec fun i => tw_cuml_kern A x (tail xbins i) sig,
    out ∈ vec fun i => A.sub (a i) (b i)}

open Classical in
/-- metallicity_weights.py:104-116 `_get_lgmet_weights_singlegal` -/
noncomputable def get_lgmet_weights_singlegal (d : ℕ) (gal_lgmet gal_lgmet_scatter : ℝ) (lgmetbin_edges : Fin (k + 2) → ℝ) :
    Set (Fin (k + 1) → ℝ) :=
  {out | ∃ hist ∈ triweighted_histogram A gal_lgmet gal_lgmet_scatter lgmetbin_edges, ∃ total ∈ A.sum d hist,
    ∃ weights ∈ vec fun i => A.div (hist i) (if total = 0 then 1.0 else total),
    out = Utils.fill_empty_weights_singlepoint gal_lgmet lgmetbin_edges weights}

/-- metallicity_weights.py:26-51 `calc_lgmet_weights_from_lognormal_mdf` -/
noncomputable def calc_lgmet_weights_from_lognormal_mdf (d : ℕ) (gal_lgmet gal_lgmet_scatter : ℝ) (ssp_lgmet : Fin (k + 3) → ℝ) :
    Set (Fin (k + 3) → ℝ) :=
  {out | ∃ lgmetbin_edges ∈ get_bin_edges A ssp_lgmet LGMET_LO LGMET_HI,
    out ∈ get_lgmet_weights_singlegal A d gal_lgmet gal_lgmet_scatter lgmetbin_edges}

/-- metallicity_weights.py:123-128 `_calc_lgmet_at_ssp_lgage_table` -/
noncomputable def calc_lgmet_at_ssp_lgage_table [Dtype] (gal_t_table gal_lgmet_table : Fin (n + 2) → ℝ) (ssp_lg_age_gyr : Fin m → ℝ)
    (t_obs : ℝ) : Set (Fin m → ℝ) :=
  {out | ∃ lgt_table ∈ vec fun i => log10 v (gal_t_table i), ∃ lgt_birth ∈ vec fun i => get_lgt_birth A v t_obs (ssp_lg_age_gyr i),
    out ∈ vec fun i => interp A (lgt_birth i) lgt_table gal_lgmet_table}

/-- metallicity_weights.py:54-101 `calc_lgmet_weights_from_lgmet_table` -/
noncomputable def calc_lgmet_weights_from_lgmet_table [Dtype] (d : ℕ) (gal_t_table gal_lgmet_table : Fin (n + 2) → ℝ)
    (gal_lgmet_scatter : ℝ) (ssp_lgmet : Fin (k + 3) → ℝ) (ssp_lg_age_gyr : Fin m → ℝ) (t_obs : ℝ) :
    Set (Fin (k + 3) → Fin m → ℝ) :=
  {out | ∃ z ∈ calc_lgmet_at_ssp_lgage_table A v gal_t_table gal_lgmet_table ssp_lg_age_gyr t_obs,
    ∃ lgmetbin_edges ∈ get_bin_edges A ssp_lgmet LGMET_LO LGMET_HI,
    ∃ W : Fin m → Fin (k + 3) → ℝ, (∀ i, W i ∈ get_lgmet_weights_singlegal A d (z i) gal_lgmet_scatter lgmetbin_edges) ∧
    ∀ j i, out j i ∈ A.div (W i j) (m : ℝ)}

/-! ### SEDs -/

/-- longest chains of additions in the four sums of an SED: metallicity weights, age weights, joint weights, SED -/
structure Depths where
  met : ℕ
  age : ℕ
  joint : ℕ
  sed : ℕ

/-- stellar_sed.py:46-127 `calc_rest_sed_sfh_table_lognormal_mdf` (first output), with ssp_weights.py:31-90 -/
noncomputable def calc_rest_sed_sfh_table_lognormal_mdf [Dtype] (d : Depths) (gal_t_table gal_sfr_table : Fin (n + 2) → ℝ)
    (gal_lgmet gal_lgmet_scatter : ℝ) (ssp_lgmet : Fin (k + 3) → ℝ) (ssp_lg_age_gyr : Fin (m + 3) → ℝ)
    (ssp_flux : Fin (k + 3) → Fin (m + 3) → Fin w → ℝ) (t_obs sfr_min : ℝ) : Set (Fin w → ℝ) :=
  {out | ∃ age_weights ∈ calc_age_weights_from_sfh_table A v d.age gal_t_table gal_sfr_table ssp_lg_age_gyr t_obs SFR_MIN,
    ∃ lgmet_weights ∈ calc_lgmet_weights_from_lognormal_mdf A d.met gal_lgmet gal_lgmet_scatter ssp_lgmet,
    ∃ weights ∈ ssp_weights A d.joint (fun i _ => lgmet_weights i) age_weights,
    ∃ mstar ∈ mstar_obs A v gal_t_table gal_sfr_table t_obs sfr_min,
    out ∈ rest_sed A d.sed ssp_flux weights mstar}

/-- stellar_sed.py:130-210 `calc_rest_sed_sfh_table_met_table` (first output), with ssp_weights.py:93-157 -/
noncomputable def calc_rest_sed_sfh_table_met_table [Dtype] (d : Depths) (gal_t_table gal_sfr_table gal_lgmet_table : Fin (n + 2) → ℝ)
    (gal_lgmet_scatter : ℝ) (ssp_lgmet : Fin (k + 3) → ℝ) (ssp_lg_age_gyr : Fin (m + 3) → ℝ)
    (ssp_flux : Fin (k + 3) → Fin (m + 3) → Fin w → ℝ) (t_obs sfr_min : ℝ) : Set (Fin w → ℝ) :=
  {out | ∃ age_weights ∈ calc_age_weights_from_sfh_table A v d.age gal_t_table gal_sfr_table ssp_lg_age_gyr t_obs SFR_MIN,
    ∃ lgmet_weights ∈ calc_lgmet_weights_from_lgmet_table A v d.met gal_t_table gal_lgmet_table gal_lgmet_scatter ssp_lgmet
      ssp_lg_age_gyr t_obs,
    ∃ weights ∈ ssp_weights A d.joint lgmet_weights age_weights,
    ∃ mstar ∈ mstar_obs A v gal_t_table gal_sfr_table t_obs sfr_min,
    out ∈ rest_sed A d.sed ssp_flux weights mstar}

end Dsps.Rounded
