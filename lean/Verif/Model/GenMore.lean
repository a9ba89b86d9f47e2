/- Continuation of `Model/Gen.lean`: dust, IMF and mass-metallicity relations over an abstract float type. -/
import Verif.Model.Gen
import Verif.Model.Dust
import Verif.Model.Imf
import Verif.Model.Umzr
import Verif.Model.Mzr

namespace Dsps.Gen
open Flt

variable {α : Type} [Flt α] {n m k w : ℕ}

/-! ### dust -/

/-- att_curves.py:435-444 `_att_curve_from_k_lambda` -/
noncomputable def att_curve_from_k_lambda (k_lambda av : α) : α :=
  let att_curve := av * k_lambda / lit Dust.RV_C00
  let att_curve := sel (lt att_curve (lit 0)) (lit 0) att_curve
  att_curve

/-- att_curves.py:31-71 `_frac_transmission_from_k_lambda` -/
noncomputable def frac_transmission_from_k_lambda (k_lambda av ftrans_floor : α) : α :=
  let A_lambda := att_curve_from_k_lambda k_lambda av
  let ftrans := exp10 (-(lit 0.4) * A_lambda)
  let ftrans := ftrans_floor + (lit 1 - ftrans_floor) * ftrans
  ftrans

/-- att_curves.py:364-385 `calzetti00_k_lambda` -/
noncomputable def calzetti00_k_lambda (wave_micron : α) : α :=
  let y := lit 1 / wave_micron
  let k1 := lit 2.659 * (-(lit 2.156) + lit 1.509 * y - lit 0.198 * ipow y 2 + lit 0.011 * ipow y 3) + lit Dust.RV_C00
  let k2 := lit 2.659 * (-(lit 1.857) + lit 1.040 * y) + lit Dust.RV_C00
  let k_lambda := sel (lt wave_micron (lit 0.63)) k1 k2
  k_lambda

/-- att_curves.py:388-407 `leitherer02_k_lambda` -/
noncomputable def leitherer02_k_lambda (wave_micron : α) : α :=
  let y := lit 1 / wave_micron
  let k_lambda := lit 5.472 + (lit 0.671 * y - lit (9.218 * 1e-3) * ipow y 2 + lit (2.620 * 1e-3) * ipow y 3)
  k_lambda

/-- att_curves.py:74-98 `_l02_below_c00_above` -/
noncomputable def l02_below_c00_above (wave_micron xc : α) : α :=
  let k_lambda_c00 := calzetti00_k_lambda wave_micron
  let k_lambda_l02 := leitherer02_k_lambda wave_micron
  let k_lambda := sel (lt xc wave_micron) k_lambda_c00 k_lambda_l02
  k_lambda

/-- att_curves.py:101-123 `power_law_vband_norm` -/
noncomputable def power_law_vband_norm (wave_micron plaw_slope vband_micron : α) : α :=
  let x := wave_micron / vband_micron
  pow x plaw_slope

/-- att_curves.py:447-454 `_drude_bump` -/
noncomputable def drude_bump (x x0 gamma ampl : α) : α :=
  let bump := ipow x 2 * ipow gamma 2 / (ipow (ipow x 2 - ipow x0 2) 2 + ipow x 2 * ipow gamma 2)
  ampl * bump

/-- att_curves.py:173-216 `noll09_k_lambda` -/
noncomputable def noll09_k_lambda (wave_micron uv_bump_ampl plaw_slope uv_bump uv_bump_width : α) : α :=
  let k_lambda := l02_below_c00_above wave_micron (lit 0.15)
  let k_lambda := k_lambda + drude_bump wave_micron uv_bump uv_bump_width uv_bump_ampl
  let k_lambda := k_lambda * power_law_vband_norm wave_micron plaw_slope (lit 0.55)
  let k_lambda := sel (lt k_lambda (lit 0)) (lit 0) k_lambda
  k_lambda

/-- att_curves.py:266-309 `sbl18_k_lambda` -/
noncomputable def sbl18_k_lambda (wave_micron uv_bump_ampl plaw_slope uv_bump uv_bump_width : α) : α :=
  let k_lambda := l02_below_c00_above wave_micron (lit 0.15)
  let k_lambda := k_lambda * power_law_vband_norm wave_micron plaw_slope (lit 0.55)
  let k_lambda := k_lambda + drude_bump wave_micron uv_bump uv_bump_width uv_bump_ampl
  let k_lambda := sel (lt k_lambda (lit 0)) (lit 0) k_lambda
  k_lambda

/-- att_curves.py:410-432 `triweight_k_lambda` -/
noncomputable def triweight_k_lambda (wave_micron xtp ytp x0 tw_h lo hi : α) : α :=
  let lgx := log10 wave_micron
  let lgk_lambda := tw_sig_slope lgx xtp ytp x0 tw_h lo hi
  let k_lambda := exp10 lgk_lambda
  k_lambda

/-- dust/utils.py:8-30 `get_filter_effective_wavelength` -/
noncomputable def get_filter_effective_wavelength (filter_wave filter_trans : Fin (n + 1) → α) (redshift : α) : α :=
  let norm := trapz filter_wave filter_trans
  let lambda_eff_rest := trapz filter_wave (fun i => filter_trans i * filter_wave i) / norm
  let lambda_eff := lambda_eff_rest / (lit 1 + redshift)
  lambda_eff

/-! ### IMF -/

/-- remnant_mass.py:20-53 `remnant_mass` with `_log_remnant_mass` -/
noncomputable def remnant_mass (lg_age_yr a b lgk1 d e : α) : α :=
  let k1 := exp10 lgk1
  let xtp := b
  exp10 (sig_slope lg_age_yr xtp a b k1 d e)

/-- surviving_mstar.py:63-71 `_returned_mass` -/
noncomputable def returned_mass (lg_age_yr a b lgk1 d e f lgk2 h : α) : α :=
  let k1 := exp10 lgk1
  let xtp := b
  let z := sig_slope lg_age_yr xtp a b k1 d e
  let k2 := exp10 lgk2
  let h := sigmoid lg_age_yr f k2 h z
  h

/-- surviving_mstar.py:30-60 `surviving_mstar` -/
noncomputable def surviving_mstar (lg_age_yr a b lgk1 d e f lgk2 h : α) : α :=
  lit 1 - returned_mass lg_age_yr a b lgk1 d e f lgk2 h

/-! ### metallicity/umzr.py, metallicity/mzr.py -/

/-- umzr.py:83-96 `mzr_model_t0` -/
noncomputable def umzr_model_t0 (logsm mzr_t0_ytp mzr_t0_x0 mzr_t0_k mzr_t0_slope_lo mzr_t0_slope_hi : α) : α :=
  let mzr_t0 := sig_slope logsm (lit Umzr.MZR_T0_XTP) mzr_t0_ytp mzr_t0_x0 mzr_t0_k mzr_t0_slope_lo mzr_t0_slope_hi
  mzr_t0 + lit Umzr.LGMET_SOLAR

/-- umzr.py:99-104 `_delta_logz_vs_t_lookback` -/
noncomputable def umzr_delta_logz_vs_t_lookback (t_lookback y_at_tc early_time_slope k : α) : α :=
  let late_time_slope := y_at_tc / lit Umzr.TLOOK_C
  sig_slope t_lookback (lit Umzr.MZR_DT_XTP) y_at_tc (lit Umzr.TLOOK_C) k late_time_slope early_time_slope

/-- umzr.py:120-139 `_delta_logz_at_t_lookback` with :107-117 `_get_p_at_lgmstar` -/
noncomputable def umzr_delta_logz_at_t_lookback
    (lgmstar t_lookback c0_y_at_tlook_c c1_y_at_tlook_c c0_early_time_slope c1_early_time_slope : α) : α :=
  let y_at_tlook_c := c0_y_at_tlook_c + c1_y_at_tlook_c * lgmstar
  let early_time_slope := c0_early_time_slope + c1_early_time_slope * lgmstar
  let logZ_reduction := umzr_delta_logz_vs_t_lookback t_lookback y_at_tlook_c early_time_slope (lit Umzr.MZR_EVOL_K)
  sel (lt (lit 0) logZ_reduction) (lit 0) logZ_reduction

/-- umzr.py:142-161 `mzr_evolution_model` -/
noncomputable def umzr_evolution_model
    (logsm cosmic_time c0_y_at_tlook_c c1_y_at_tlook_c c0_early_time_slope c1_early_time_slope : α) : α :=
  let t_lookback := lit Umzr.MZR_EVOL_T0 - cosmic_time
  let t_lookback := sel (lt t_lookback (lit 0)) (lit 0) t_lookback
  umzr_delta_logz_at_t_lookback logsm t_lookback c0_y_at_tlook_c c1_y_at_tlook_c c0_early_time_slope c1_early_time_slope

/-- umzr.py:164-189 `mzr_model`; the nine parameters as an array in field order -/
noncomputable def umzr_model (logsm t : α) (p : Fin 9 → α) : α :=
  let lgmet_at_t0 := umzr_model_t0 logsm (p 0) (p 1) (p 2) (p 3) (p 4)
  let logZ_reduction := umzr_evolution_model logsm t (p 5) (p 6) (p 7) (p 8)
  lgmet_at_t0 + logZ_reduction

/-- umzr.py:192-196 `_get_square_bounded_param` -/
noncomputable def get_square_bounded_param (u_param : α) (bound : ℝ × ℝ) : α :=
  let lo := lit bound.1
  let hi := lit bound.2
  let mid := lit 0.5 * (lo + hi)
  sigmoid u_param mid (lit Umzr.BOUNDING_K) lo hi

/-- umzr.py:206-212 `_get_mzr_t0_slope_hi_from_unbounded` -/
noncomputable def get_mzr_t0_slope_hi_from_unbounded (mzr_t0_slope_lo u_mzr_t0_slope_hi : α) : α :=
  let x0 := lit 0.0
  let ylo := lit (Umzr.MZR_PBDICT 4).1
  let yhi := mzr_t0_slope_lo
  sigmoid u_mzr_t0_slope_hi x0 (lit Umzr.BOUNDING_K) ylo yhi

/-- umzr.py:224, 228-244 `get_bounded_mzr_params` -/
noncomputable def get_bounded_mzr_params (u_params : Fin 9 → α) : Fin 9 → α :=
  let params := fun i => get_square_bounded_param (u_params i) (Umzr.MZR_PBDICT i)
  let mzr_t0_slope_hi := get_mzr_t0_slope_hi_from_unbounded (params 3) (u_params 4)
  Function.update params 4 mzr_t0_slope_hi

/-- mzr.py:50-64 `mzr_model_t0` -/
noncomputable def mzr_model_t0 (logsm mzr_t0_y0 mzr_t0_x0 mzr_t0_k mzr_t0_slope_lo mzr_t0_slope_hi : α) : α :=
  let mzr_t0_xtp := mzr_t0_x0
  let mzr_t0 := sig_slope logsm mzr_t0_xtp mzr_t0_y0 mzr_t0_x0 mzr_t0_k mzr_t0_slope_lo mzr_t0_slope_hi
  mzr_t0 + lit Mzr.LGMET_SOLAR

/-- mzr.py:74-80 `_delta_logz_vs_t_lookback` -/
noncomputable def delta_logz_vs_t_lookback (t_lookback y_at_tc tc early_time_slope k : α) : α :=
  let late_time_slope := y_at_tc / tc
  let xtp := tc
  sig_slope t_lookback xtp y_at_tc tc k late_time_slope early_time_slope

/-- mzr.py:98-119 `_delta_logz_at_t_lookback` with :83-95 `_get_p_at_lgmstar` -/
noncomputable def delta_logz_at_t_lookback
    (lgmstar t_lookback c0_y_at_tlook_c c1_y_at_tlook_c tlook_c c0_early_time_slope c1_early_time_slope : α) : α :=
  let y_at_tlook_c := c0_y_at_tlook_c + c1_y_at_tlook_c * lgmstar
  let tlook_c := tlook_c + lit 0
  let early_time_slope := c0_early_time_slope + c1_early_time_slope * lgmstar
  let logZ_reduction := delta_logz_vs_t_lookback t_lookback y_at_tlook_c tlook_c early_time_slope (lit Mzr.MZR_EVOL_K)
  sel (lt (lit 0) logZ_reduction) (lit 0) logZ_reduction

/-- mzr.py:122-143 `mzr_evolution_model` -/
noncomputable def mzr_evolution_model
    (logsm cosmic_time c0_y_at_tlook_c c1_y_at_tlook_c tlook_c c0_early_time_slope c1_early_time_slope : α) : α :=
  let t_lookback := lit Mzr.MZR_EVOL_T0 - cosmic_time
  let t_lookback := sel (lt t_lookback (lit 0)) (lit 0) t_lookback
  delta_logz_at_t_lookback logsm t_lookback c0_y_at_tlook_c c1_y_at_tlook_c tlook_c c0_early_time_slope
    c1_early_time_slope

/-- mzr.py:146-173 `mzr_model` -/
noncomputable def mzr_model (logsm t mzr_t0_y0 mzr_t0_x0 mzr_t0_k mzr_t0_slope_lo mzr_t0_slope_hi c0_y_at_tlook_c
    c1_y_at_tlook_c tlook_c c0_early_time_slope c1_early_time_slope : α) : α :=
  let lgmet_at_t0 := mzr_model_t0 logsm mzr_t0_y0 mzr_t0_x0 mzr_t0_k mzr_t0_slope_lo mzr_t0_slope_hi
  let logZ_reduction := mzr_evolution_model logsm t c0_y_at_tlook_c c1_y_at_tlook_c tlook_c c0_early_time_slope
    c1_early_time_slope
  lgmet_at_t0 + logZ_reduction

end Dsps.Gen
