import Verif.Model.Utils

/-! Model of `/repo/dsps/sfh/diffburst.py` (line numbers refer to that file). -/
namespace Dsps.Diffburst
open Jnp Dsps.Utils

variable {n : ℕ}

/-- diffburst.py:10 -/
noncomputable def LGYR_PEAK_MIN : ℝ := 5.0
/-- diffburst.py:11 -/
noncomputable def LGAGE_MAX : ℝ := 9.0
/-- diffburst.py:12 -/
noncomputable def DLGAGE_MIN : ℝ := 1.0
/-- diffburst.py:13 -/
noncomputable def LGYR_PEAK_MAX : ℝ := LGAGE_MAX - DLGAGE_MIN
/-- diffburst.py:15 -/
noncomputable def LGFBURST_MIN : ℝ := -8.0
/-- diffburst.py:16 -/
noncomputable def LGFBURST_MAX : ℝ := -1.0
/-- diffburst.py:18 -/
noncomputable def LGAGE_K : ℝ := 0.1
/-- diffburst.py:19 -/
noncomputable def LGFB_X0 : ℝ := -2
/-- diffburst.py:19 -/
noncomputable def LGFB_K : ℝ := 0.1

/-- diffburst.py:22-25 -/
@[ext] structure BurstParams where
  lgfburst : ℝ
  lgyr_peak : ℝ
  lgyr_max : ℝ

/-- diffburst.py:28-31 -/
@[ext] structure BurstUParams where
  u_lgfburst : ℝ
  u_lgyr_peak : ℝ
  u_lgyr_max : ℝ

/-- diffburst.py:34 -/
noncomputable def DEFAULT_BURST_PARAMS : BurstParams := ⟨-3.0, 5.5, 7.0⟩

/-- diffburst.py:104-108 `_zero_safe_normalize` -/
noncomputable def zero_safe_normalize (x : Fin n → ℝ) : Fin n → ℝ :=
  let s := sum x
  let s := if s ≤ 0 then 1 else s
  fun i => x i / s

/-- diffburst.py:111-123 `_pureburst_age_weights_from_params` -/
noncomputable def pureburst_age_weights_from_params (lgyr : Fin n → ℝ) (lgyr_peak lgyr_max : ℝ) : Fin n → ℝ :=
  let dlgyr_support := lgyr_max - lgyr_peak
  let lgyr_min := lgyr_peak - dlgyr_support
  let twx0 := 0.5 * (lgyr_min + lgyr_max)
  let dlgyr := lgyr_max - lgyr_min
  let twh := dlgyr / 6
  let tw_gauss := fun i => triweight_gaussian (lgyr i) twx0 twh
  zero_safe_normalize tw_gauss

/-- diffburst.py:38-71 `calc_bursty_age_weights` -/
noncomputable def calc_bursty_age_weights (burst_params : BurstParams) (smooth_age_weights ssp_lg_age_gyr : Fin n → ℝ) :
    Fin n → ℝ :=
  let ssp_lg_age_yr := fun i => ssp_lg_age_gyr i + 9.0
  let burst_weights := pureburst_age_weights_from_params ssp_lg_age_yr burst_params.lgyr_peak burst_params.lgyr_max
  let fb := exp10 burst_params.lgfburst
  fun i => fb * burst_weights i + (1 - fb) * smooth_age_weights i

/-- diffburst.py:169-175 `_get_lgyr_peak_from_u_lgyr_peak` -/
noncomputable def get_lgyr_peak_from_u_lgyr_peak (u_lgyr_peak : ℝ) : ℝ :=
  let lo := LGYR_PEAK_MIN
  let hi := LGAGE_MAX - DLGAGE_MIN
  let x0 := 0.5 * (hi + lo)
  sigmoid u_lgyr_peak x0 LGAGE_K lo hi

/-- diffburst.py:178-180 `_get_lgfburst_from_u_lgfburst` -/
noncomputable def get_lgfburst_from_u_lgfburst (u_lgfburst : ℝ) : ℝ :=
  sigmoid u_lgfburst LGFB_X0 LGFB_K LGFBURST_MIN LGFBURST_MAX

/-- diffburst.py:183-185 `_get_u_lgfburst_from_lgfburst` -/
noncomputable def get_u_lgfburst_from_lgfburst (lgfburst : ℝ) : ℝ :=
  inverse_sigmoid lgfburst LGFB_X0 LGFB_K LGFBURST_MIN LGFBURST_MAX

/-- diffburst.py:188-193 `_get_lgyr_max_from_lgyr_peak` -/
noncomputable def get_lgyr_max_from_lgyr_peak (lgyr_peak u_lgyr_max : ℝ) : ℝ :=
  let lo := lgyr_peak + DLGAGE_MIN
  let hi := LGAGE_MAX
  let x0 := 0.5 * (hi + lo)
  sigmoid u_lgyr_max x0 LGAGE_K lo hi

/-- diffburst.py:196-201 `_get_u_lgyr_peak_from_lgyr_peak` -/
noncomputable def get_u_lgyr_peak_from_lgyr_peak (lgyr_peak : ℝ) : ℝ :=
  let lo := LGYR_PEAK_MIN
  let hi := LGYR_PEAK_MAX
  let x0 := 0.5 * (hi + lo)
  inverse_sigmoid lgyr_peak x0 LGAGE_K lo hi

/-- diffburst.py:204-209 `_get_u_lgyr_max_from_lgyr_peak` -/
noncomputable def get_u_lgyr_max_from_lgyr_peak (lgyr_peak lgyr_max : ℝ) : ℝ :=
  let lo := lgyr_peak + DLGAGE_MIN
  let hi := LGAGE_MAX
  let x0 := 0.5 * (hi + lo)
  inverse_sigmoid lgyr_max x0 LGAGE_K lo hi

/-- diffburst.py:144-148 `_get_tburst_params_from_tburst_u_params` -/
noncomputable def get_tburst_params_from_tburst_u_params (u_lgyr_peak u_lgyr_max : ℝ) : ℝ × ℝ :=
  let lgyr_peak := get_lgyr_peak_from_u_lgyr_peak u_lgyr_peak
  let lgyr_max := get_lgyr_max_from_lgyr_peak lgyr_peak u_lgyr_max
  (lgyr_peak, lgyr_max)

/-- diffburst.py:151-155 `_get_tburst_u_params_from_tburst_params` -/
noncomputable def get_tburst_u_params_from_tburst_params (lgyr_peak lgyr_max : ℝ) : ℝ × ℝ :=
  let u_lgyr_peak := get_u_lgyr_peak_from_lgyr_peak lgyr_peak
  let u_lgyr_max := get_u_lgyr_max_from_lgyr_peak lgyr_peak lgyr_max
  (u_lgyr_peak, u_lgyr_max)

/-- diffburst.py:126-130 `_pureburst_age_weights_from_u_params` -/
noncomputable def pureburst_age_weights_from_u_params (lgyr : Fin n → ℝ) (u_lgyr_peak u_lgyr_max : ℝ) : Fin n → ℝ :=
  let lgyr_peak := get_lgyr_peak_from_u_lgyr_peak u_lgyr_peak
  let lgyr_max := get_lgyr_max_from_lgyr_peak lgyr_peak u_lgyr_max
  pureburst_age_weights_from_params lgyr lgyr_peak lgyr_max

/-- diffburst.py:133-141 `_get_params_from_u_params` -/
noncomputable def get_params_from_u_params (u_params : BurstUParams) : BurstParams :=
  let lgfburst := get_lgfburst_from_u_lgfburst u_params.u_lgfburst
  let r := get_tburst_params_from_tburst_u_params u_params.u_lgyr_peak u_params.u_lgyr_max
  ⟨lgfburst, r.1, r.2⟩

/-- diffburst.py:158-166 `_get_u_params_from_params` -/
noncomputable def get_u_params_from_params (params : BurstParams) : BurstUParams :=
  let u_lgfburst := get_u_lgfburst_from_lgfburst params.lgfburst
  let r := get_tburst_u_params_from_tburst_params params.lgyr_peak params.lgyr_max
  ⟨u_lgfburst, r.1, r.2⟩

/-- diffburst.py:212-214 -/
noncomputable def DEFAULT_BURST_U_PARAMS : BurstUParams := get_u_params_from_params DEFAULT_BURST_PARAMS

/-- diffburst.py:74-101 `calc_bursty_age_weights_from_u_params` -/
noncomputable def calc_bursty_age_weights_from_u_params (u_burst_params : BurstUParams)
    (smooth_age_weights ssp_lg_age_gyr : Fin n → ℝ) : Fin n → ℝ :=
  let burst_params := get_params_from_u_params u_burst_params
  calc_bursty_age_weights burst_params smooth_age_weights ssp_lg_age_gyr

/-- diffburst.py:217-225 `_compute_bursty_age_weights_from_params` -/
noncomputable def compute_bursty_age_weights_from_params (lgyr_since_burst age_weights : Fin n → ℝ) (params : BurstParams) :
    Fin n → ℝ :=
  let fburst := exp10 params.lgfburst
  let burst_weights := pureburst_age_weights_from_params lgyr_since_burst params.lgyr_peak params.lgyr_max
  fun i => fburst * burst_weights i + (1 - fburst) * age_weights i

/-- diffburst.py:228-234 `_compute_bursty_age_weights_from_u_params` -/
noncomputable def compute_bursty_age_weights_from_u_params (lgyr_since_burst age_weights : Fin n → ℝ)
    (u_params : BurstUParams) : Fin n → ℝ :=
  let params := get_params_from_u_params u_params
  compute_bursty_age_weights_from_params lgyr_since_burst age_weights params

end Dsps.Diffburst
