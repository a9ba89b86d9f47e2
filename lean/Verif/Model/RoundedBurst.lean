import Verif.Model.RoundedMzr
import Verif.Model.RoundedSed
import Verif.Model.Diffburst

/-! Age weights of bursts in machine arithmetic (`Verif/Fl.lean`), operation by operation: `triweight_gaussian` of `/repo/dsps/utils.py` and
`/repo/dsps/sfh/diffburst.py`.  `A` is the arithmetic of the arrays, `P` that of Python's floats, `v` the accuracy of the library functions, `d` the
longest chain of additions in a sum.  Parameters and ages are machine numbers. -/
namespace Dsps.Rounded
open Jnp Fl

variable (P A : Arith) (v : ℝ) {n : ℕ}

open Classical in
/-- utils.py:105-110 `triweight_gaussian`: `35 / 96` is computed by Python and converted -/
noncomputable def triweight_gaussian (x m h : ℝ) : Set ℝ :=
  {out | ∃ d ∈ A.sub x m, ∃ z ∈ A.div d h, ∃ q ∈ A.div z 3, ∃ q2, IntPow A q 2 q2 ∧ ∃ o ∈ A.sub 1 q2, ∃ o3, IntPow A o 3 o3 ∧
    ∃ c ∈ lit P A (35 / 96), ∃ p ∈ A.mul c o3, ∃ val ∈ A.div p h, out = if z < -3 ∨ z > 3 then 0 else val}

open Classical in
/-- diffburst.py:104-108 `_zero_safe_normalize` -/
noncomputable def zero_safe_normalize (d : ℕ) (x : Fin n → ℝ) : Set (Fin n → ℝ) :=
  {out | ∃ s ∈ A.sum d x, out ∈ vec fun i => A.div (x i) (if s ≤ 0 then 1 else s)}

/-- diffburst.py:111-123 `_pureburst_age_weights_from_params` -/
noncomputable def pureburst_age_weights_from_params (d : ℕ) (lgyr : Fin n → ℝ) (lgyr_peak lgyr_max : ℝ) : Set (Fin n → ℝ) :=
  {out | ∃ dlgyr_support ∈ A.sub lgyr_max lgyr_peak, ∃ lgyr_min ∈ A.sub lgyr_peak dlgyr_support, ∃ s ∈ A.add lgyr_min lgyr_max,
    ∃ twx0 ∈ A.mul 0.5 s, ∃ dlgyr ∈ A.sub lgyr_max lgyr_min, ∃ twh ∈ A.div dlgyr 6,
    ∃ tw_gauss ∈ vec fun i => triweight_gaussian P A (lgyr i) twx0 twh, out ∈ zero_safe_normalize A d tw_gauss}

/-- diffburst.py:66-69, :220-224: the mixture of burst and smooth population -/
noncomputable def mix (lgfburst : ℝ) (burst_weights smooth_age_weights : Fin n → ℝ) : Set (Fin n → ℝ) :=
  {out | ∃ fb ∈ exp10 v lgfburst, ∃ a ∈ vec fun i => A.mul fb (burst_weights i), ∃ g ∈ A.sub 1 fb,
    ∃ b ∈ vec fun i => A.mul g (smooth_age_weights i), out ∈ vec fun i => A.add (a i) (b i)}

/-- diffburst.py:38-71 `calc_bursty_age_weights` -/
noncomputable def calc_bursty_age_weights (d : ℕ) (burst_params : Diffburst.BurstParams) (smooth_age_weights ssp_lg_age_gyr : Fin n → ℝ) :
    Set (Fin n → ℝ) :=
  {out | ∃ ssp_lg_age_yr ∈ vec fun i => A.add (ssp_lg_age_gyr i) 9.0,
    ∃ burst_weights ∈ pureburst_age_weights_from_params P A d ssp_lg_age_yr burst_params.lgyr_peak burst_params.lgyr_max,
    out ∈ mix A v burst_params.lgfburst burst_weights smooth_age_weights}

/-- diffburst.py:169-175 `_get_lgyr_peak_from_u_lgyr_peak`; the bounds and the midpoint 6.5 are exact Python floats -/
noncomputable def get_lgyr_peak_from_u_lgyr_peak (S : ℝ → Set ℝ) (u_lgyr_peak : ℝ) : Set ℝ :=
  {out | ∃ k ∈ lit P A Diffburst.LGAGE_K, out ∈ sigmoid A S u_lgyr_peak 6.5 k Diffburst.LGYR_PEAK_MIN Diffburst.LGYR_PEAK_MAX}

/-- diffburst.py:178-180 `_get_lgfburst_from_u_lgfburst` -/
noncomputable def get_lgfburst_from_u_lgfburst (S : ℝ → Set ℝ) (u_lgfburst : ℝ) : Set ℝ :=
  {out | ∃ k ∈ lit P A Diffburst.LGFB_K, out ∈ sigmoid A S u_lgfburst Diffburst.LGFB_X0 k Diffburst.LGFBURST_MIN Diffburst.LGFBURST_MAX}

/-- diffburst.py:188-193 `_get_lgyr_max_from_lgyr_peak` -/
noncomputable def get_lgyr_max_from_lgyr_peak (S : ℝ → Set ℝ) (lgyr_peak u_lgyr_max : ℝ) : Set ℝ :=
  {out | ∃ lo ∈ A.add lgyr_peak Diffburst.DLGAGE_MIN, ∃ s ∈ A.add Diffburst.LGAGE_MAX lo, ∃ x0 ∈ A.mul 0.5 s, ∃ k ∈ lit P A Diffburst.LGAGE_K,
    out ∈ sigmoid A S u_lgyr_max x0 k lo Diffburst.LGAGE_MAX}

/-- diffburst.py:133-141 `_get_params_from_u_params` -/
noncomputable def get_params_from_u_params (S : ℝ → Set ℝ) (u_params : Diffburst.BurstUParams) : Set Diffburst.BurstParams :=
  {out | ∃ lgfburst ∈ get_lgfburst_from_u_lgfburst P A S u_params.u_lgfburst,
    ∃ lgyr_peak ∈ get_lgyr_peak_from_u_lgyr_peak P A S u_params.u_lgyr_peak,
    ∃ lgyr_max ∈ get_lgyr_max_from_lgyr_peak P A S lgyr_peak u_params.u_lgyr_max, out = ⟨lgfburst, lgyr_peak, lgyr_max⟩}

/-- diffburst.py:183-185 `_get_u_lgfburst_from_lgfburst` -/
noncomputable def get_u_lgfburst_from_lgfburst (lgfburst : ℝ) : Set ℝ :=
  {out | ∃ k ∈ lit P A Diffburst.LGFB_K, out ∈ inverse_sigmoid A v lgfburst Diffburst.LGFB_X0 k Diffburst.LGFBURST_MIN Diffburst.LGFBURST_MAX}

/-- diffburst.py:196-201 `_get_u_lgyr_peak_from_lgyr_peak` -/
noncomputable def get_u_lgyr_peak_from_lgyr_peak (lgyr_peak : ℝ) : Set ℝ :=
  {out | ∃ k ∈ lit P A Diffburst.LGAGE_K, out ∈ inverse_sigmoid A v lgyr_peak 6.5 k Diffburst.LGYR_PEAK_MIN Diffburst.LGYR_PEAK_MAX}

/-- diffburst.py:204-209 `_get_u_lgyr_max_from_lgyr_peak` -/
noncomputable def get_u_lgyr_max_from_lgyr_peak (lgyr_peak lgyr_max : ℝ) : Set ℝ :=
  {out | ∃ lo ∈ A.add lgyr_peak Diffburst.DLGAGE_MIN, ∃ s ∈ A.add Diffburst.LGAGE_MAX lo, ∃ x0 ∈ A.mul 0.5 s, ∃ k ∈ lit P A Diffburst.LGAGE_K,
    out ∈ inverse_sigmoid A v lgyr_max x0 k lo Diffburst.LGAGE_MAX}

/-- diffburst.py:158-166 `_get_u_params_from_params` -/
noncomputable def get_u_params_from_params (params : Diffburst.BurstParams) : Set Diffburst.BurstUParams :=
  {out | ∃ u_lgfburst ∈ get_u_lgfburst_from_lgfburst P A v params.lgfburst,
    ∃ u_lgyr_peak ∈ get_u_lgyr_peak_from_lgyr_peak P A v params.lgyr_peak,
    ∃ u_lgyr_max ∈ get_u_lgyr_max_from_lgyr_peak P A v params.lgyr_peak params.lgyr_max, out = ⟨u_lgfburst, u_lgyr_peak, u_lgyr_max⟩}

/-- diffburst.py:74-101 `calc_bursty_age_weights_from_u_params` -/
noncomputable def calc_bursty_age_weights_from_u_params (S : ℝ → Set ℝ) (d : ℕ) (u_burst_params : Diffburst.BurstUParams)
    (smooth_age_weights ssp_lg_age_gyr : Fin n → ℝ) : Set (Fin n → ℝ) :=
  {out | ∃ p ∈ get_params_from_u_params P A S u_burst_params, out ∈ calc_bursty_age_weights P A v d p smooth_age_weights ssp_lg_age_gyr}

end Dsps.Rounded
