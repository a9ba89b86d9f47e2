import Verif.Model.Utils

/-! Model of `/repo/dsps/dust/att_curves.py` and `/repo/dsps/dust/utils.py`.  All curves are elementwise in the
wavelength array, so they are modelled as functions of one wavelength; `Jnp.vmap` is the array version. -/
namespace Dsps.Dust
open Jnp Dsps.Utils

variable {n : ℕ}

/-- att_curves.py:26 -/
noncomputable def RV_C00 : ℝ := 4.05
/-- att_curves.py:27 -/
noncomputable def UV_BUMP_W0 : ℝ := 0.2175
/-- att_curves.py:28 -/
noncomputable def UV_BUMP_DW : ℝ := 0.0350

/-- att_curves.py:435-444 `_att_curve_from_k_lambda` -/
noncomputable def att_curve_from_k_lambda (k_lambda av : ℝ) : ℝ :=
  let att_curve := av * k_lambda / RV_C00
  let att_curve := if att_curve < 0 then 0 else att_curve
  att_curve

/-- att_curves.py:31-71 `_frac_transmission_from_k_lambda` -/
noncomputable def frac_transmission_from_k_lambda (k_lambda av : ℝ) (ftrans_floor : ℝ := 0) : ℝ :=
  let A_lambda := att_curve_from_k_lambda k_lambda av
  let ftrans := (10 : ℝ) ^ (-0.4 * A_lambda)
  let ftrans := ftrans_floor + (1 - ftrans_floor) * ftrans
  ftrans

/-- att_curves.py:364-385 `calzetti00_k_lambda` -/
noncomputable def calzetti00_k_lambda (wave_micron : ℝ) : ℝ :=
  let y := 1 / wave_micron
  let k1 := 2.659 * (-2.156 + 1.509 * y - 0.198 * y ^ 2 + 0.011 * y ^ 3) + RV_C00
  let k2 := 2.659 * (-1.857 + 1.040 * y) + RV_C00
  let k_lambda := if wave_micron < 0.63 then k1 else k2
  k_lambda

/-- att_curves.py:388-407 `leitherer02_k_lambda` -/
noncomputable def leitherer02_k_lambda (wave_micron : ℝ) : ℝ :=
  let y := 1 / wave_micron
  let k_lambda := 5.472 + (0.671 * y - 9.218 * 1e-3 * y ^ 2 + 2.620 * 1e-3 * y ^ 3)
  k_lambda

/-- att_curves.py:74-98 `_l02_below_c00_above` -/
noncomputable def l02_below_c00_above (wave_micron : ℝ) (xc : ℝ := 0.15) : ℝ :=
  let k_lambda_c00 := calzetti00_k_lambda wave_micron
  let k_lambda_l02 := leitherer02_k_lambda wave_micron
  let k_lambda := if wave_micron > xc then k_lambda_c00 else k_lambda_l02
  k_lambda

/-- att_curves.py:101-123 `power_law_vband_norm` -/
noncomputable def power_law_vband_norm (wave_micron plaw_slope : ℝ) (vband_micron : ℝ := 0.55) : ℝ :=
  let x := wave_micron / vband_micron
  x ^ plaw_slope

/-- att_curves.py:447-454 `_drude_bump` -/
noncomputable def drude_bump (x x0 gamma ampl : ℝ) : ℝ :=
  let bump := x ^ 2 * gamma ^ 2 / ((x ^ 2 - x0 ^ 2) ^ 2 + x ^ 2 * gamma ^ 2)
  ampl * bump

/-- att_curves.py:173-216 `noll09_k_lambda` -/
noncomputable def noll09_k_lambda (wave_micron uv_bump_ampl plaw_slope : ℝ) (uv_bump : ℝ := UV_BUMP_W0)
    (uv_bump_width : ℝ := UV_BUMP_DW) : ℝ :=
  let k_lambda := l02_below_c00_above wave_micron 0.15
  let k_lambda := k_lambda + drude_bump wave_micron uv_bump uv_bump_width uv_bump_ampl
  let k_lambda := k_lambda * power_law_vband_norm wave_micron plaw_slope
  let k_lambda := if k_lambda < 0 then 0 else k_lambda
  k_lambda

/-- att_curves.py:126-170 `noll09_k_att_curve` -/
noncomputable def noll09_k_att_curve (wave_micron av uv_bump_ampl plaw_slope : ℝ) (uv_bump : ℝ := UV_BUMP_W0)
    (uv_bump_width : ℝ := UV_BUMP_DW) : ℝ :=
  let k_lambda := noll09_k_lambda wave_micron uv_bump_ampl plaw_slope uv_bump uv_bump_width
  let A_lambda := att_curve_from_k_lambda k_lambda av
  A_lambda

/-- att_curves.py:266-309 `sbl18_k_lambda` -/
noncomputable def sbl18_k_lambda (wave_micron uv_bump_ampl plaw_slope : ℝ) (uv_bump : ℝ := UV_BUMP_W0)
    (uv_bump_width : ℝ := UV_BUMP_DW) : ℝ :=
  let k_lambda := l02_below_c00_above wave_micron 0.15
  let k_lambda := k_lambda * power_law_vband_norm wave_micron plaw_slope
  let k_lambda := k_lambda + drude_bump wave_micron uv_bump uv_bump_width uv_bump_ampl
  let k_lambda := if k_lambda < 0 then 0 else k_lambda
  k_lambda

/-- att_curves.py:219-263 `sbl18_k_att_curve` -/
noncomputable def sbl18_k_att_curve (wave_micron av uv_bump_ampl plaw_slope : ℝ) (uv_bump : ℝ := UV_BUMP_W0)
    (uv_bump_width : ℝ := UV_BUMP_DW) : ℝ :=
  let k_lambda := sbl18_k_lambda wave_micron uv_bump_ampl plaw_slope uv_bump uv_bump_width
  let A_lambda := att_curve_from_k_lambda k_lambda av
  A_lambda

/-- att_curves.py:312-335 `calzetti00_att_curve` -/
noncomputable def calzetti00_att_curve (wave_micron av : ℝ) : ℝ :=
  let k_lambda := calzetti00_k_lambda wave_micron
  let A_lambda := att_curve_from_k_lambda k_lambda av
  A_lambda

/-- att_curves.py:338-361 `leitherer02_att_curve` -/
noncomputable def leitherer02_att_curve (wave_micron av : ℝ) : ℝ :=
  let k_lambda := leitherer02_k_lambda wave_micron
  let A_lambda := att_curve_from_k_lambda k_lambda av
  A_lambda

/-- att_curves.py:410-432 `triweight_k_lambda` -/
noncomputable def triweight_k_lambda (wave_micron : ℝ) (xtp : ℝ := -1.0) (ytp : ℝ := 1.15) (x0 : ℝ := 0.5)
    (tw_h : ℝ := 0.5) (lo : ℝ := -0.65) (hi : ℝ := -1.95) : ℝ :=
  let lgx := log10 wave_micron
  let lgk_lambda := tw_sig_slope lgx xtp ytp x0 tw_h lo hi
  let k_lambda := exp10 lgk_lambda
  k_lambda

/-- att_curves.py:457-460 `_get_eb_from_delta` -/
noncomputable def get_eb_from_delta (delta : ℝ) : ℝ := -1.9 * delta + 0.85

/-- dust/utils.py:8-30 `get_filter_effective_wavelength` -/
noncomputable def get_filter_effective_wavelength (filter_wave filter_trans : Fin (n + 1) → ℝ) (redshift : ℝ) : ℝ :=
  let norm := trapz filter_wave filter_trans
  let lambda_eff_rest := trapz filter_wave (fun i => filter_trans i * filter_wave i) / norm
  let lambda_eff := lambda_eff_rest / (1 + redshift)
  lambda_eff

end Dsps.Dust
