import Verif.Model.Utils

/-! Model of `/repo/dsps/metallicity/mzr.py` (line numbers refer to that file). -/
namespace Dsps.Mzr
open Jnp Dsps.Utils

/-- mzr.py:28 -/
noncomputable def MZR_EVOL_T0 : ℝ := 12.5
/-- mzr.py:29 -/
noncomputable def MZR_EVOL_K : ℝ := 1.6
/-- mzr.py:47 -/
noncomputable def LGMET_SOLAR : ℝ := log10 0.012

/-- mzr.py:50-64 `mzr_model_t0` -/
noncomputable def mzr_model_t0 (logsm mzr_t0_y0 mzr_t0_x0 mzr_t0_k mzr_t0_slope_lo mzr_t0_slope_hi : ℝ) : ℝ :=
  let mzr_t0_xtp := mzr_t0_x0
  let mzr_t0 := sig_slope logsm mzr_t0_xtp mzr_t0_y0 mzr_t0_x0 mzr_t0_k mzr_t0_slope_lo mzr_t0_slope_hi
  mzr_t0 + LGMET_SOLAR

/-- mzr.py:67-71 `maiolino08_metallicity_evolution` -/
noncomputable def maiolino08_metallicity_evolution (logsm logm0 k0 : ℝ) : ℝ :=
  let x := logsm - logm0
  let xsq := x * x;
  (-12.0 - 0.0864 * xsq + k0)

/-- mzr.py:74-80 `_delta_logz_vs_t_lookback` -/
noncomputable def delta_logz_vs_t_lookback (t_lookback y_at_tc tc early_time_slope k : ℝ) : ℝ :=
  let late_time_slope := y_at_tc / tc
  let xtp := tc
  sig_slope t_lookback xtp y_at_tc tc k late_time_slope early_time_slope

/-- mzr.py:83-95 `_get_p_at_lgmstar` -/
noncomputable def get_p_at_lgmstar
    (lgmstar c0_y_at_tlook_c c1_y_at_tlook_c tlook_c c0_early_time_slope c1_early_time_slope : ℝ) : ℝ × ℝ × ℝ :=
  let y_at_tlook_c := c0_y_at_tlook_c + c1_y_at_tlook_c * lgmstar
  let tlook_c := tlook_c + 0
  let early_time_slope := c0_early_time_slope + c1_early_time_slope * lgmstar
  (y_at_tlook_c, tlook_c, early_time_slope)

/-- mzr.py:98-119 `_delta_logz_at_t_lookback` -/
noncomputable def delta_logz_at_t_lookback
    (lgmstar t_lookback c0_y_at_tlook_c c1_y_at_tlook_c tlook_c c0_early_time_slope c1_early_time_slope : ℝ) : ℝ :=
  let r := get_p_at_lgmstar lgmstar c0_y_at_tlook_c c1_y_at_tlook_c tlook_c c0_early_time_slope c1_early_time_slope
  let logZ_reduction := delta_logz_vs_t_lookback t_lookback r.1 r.2.1 r.2.2 MZR_EVOL_K
  if logZ_reduction > 0 then 0 else logZ_reduction

/-- mzr.py:122-143 `mzr_evolution_model` -/
noncomputable def mzr_evolution_model
    (logsm cosmic_time c0_y_at_tlook_c c1_y_at_tlook_c tlook_c c0_early_time_slope c1_early_time_slope : ℝ) : ℝ :=
  let t_lookback := MZR_EVOL_T0 - cosmic_time
  let t_lookback := if t_lookback < 0 then 0 else t_lookback
  delta_logz_at_t_lookback logsm t_lookback c0_y_at_tlook_c c1_y_at_tlook_c tlook_c c0_early_time_slope
    c1_early_time_slope

/-- mzr.py:146-173 `mzr_model` -/
noncomputable def mzr_model (logsm t mzr_t0_y0 mzr_t0_x0 mzr_t0_k mzr_t0_slope_lo mzr_t0_slope_hi c0_y_at_tlook_c
    c1_y_at_tlook_c tlook_c c0_early_time_slope c1_early_time_slope : ℝ) : ℝ :=
  let lgmet_at_t0 := mzr_model_t0 logsm mzr_t0_y0 mzr_t0_x0 mzr_t0_k mzr_t0_slope_lo mzr_t0_slope_hi
  let logZ_reduction := mzr_evolution_model logsm t c0_y_at_tlook_c c1_y_at_tlook_c tlook_c c0_early_time_slope
    c1_early_time_slope
  lgmet_at_t0 + logZ_reduction

/-- mzr.py:17-19, 30-36, 38, 41-45 `DEFAULT_MET_PARAMS` (the eleventh entry, `mzr_scatter`, is not a parameter of
`mzr_model`). -/
noncomputable def DEFAULT_MET_PARAMS : Fin 11 → ℝ :=
  ![0.05, 10.5, 1, 0.4, 0.1, -1.455, 0.13, 8.44, -0.959, 0.067242, 0.1]

end Dsps.Mzr
