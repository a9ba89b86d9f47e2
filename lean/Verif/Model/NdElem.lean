import Verif.Nd
import Verif.Model.Mzr
import Verif.Model.Umzr
import Verif.Model.Imf
import Verif.Model.Dust
import Verif.Model.Blackbody
import Verif.Model.FlatWcdm
import Verif.Model.Diffburst

/-! The formulas of the package on arrays of *arbitrary shapes*: every argument (data as well as parameters) may be a scalar or an array of any rank, and every
arithmetic operation broadcasts or raises as numpy's does (`Verif/Nd.lean`).  The expressions are those of the source, operation by operation. -/
namespace Nd
open Py

/-- the value of an array expression: an array, or the exception raised while it was evaluated -/
def E : Type := Except PyErr (Arr ℝ)
/-- the same for a boolean array -/
def EP : Type := Except PyErr (Arr Prop)

namespace E

/-- a Python number -/
def lit (x : ℝ) : E := .ok (scal x)
/-- an array passed by the caller -/
def arr (a : Arr ℝ) : E := .ok a
/-- a unary elementwise function -/
def lift1 (f : ℝ → ℝ) (a : E) : E := Except.bind a fun x => .ok (map f x)
/-- a binary elementwise operation -/
def lift2 (f : ℝ → ℝ → ℝ) (a b : E) : E := Except.bind a fun x => Except.bind b fun y => map2 f x y
/-- an elementwise comparison -/
def rel2 (f : ℝ → ℝ → Prop) (a b : E) : EP := Except.bind a fun x => Except.bind b fun y => map2 f x y
/-- `c | d` -/
def or (a b : EP) : EP := Except.bind (α := Arr Prop) a fun x => Except.bind (α := Arr Prop) b fun y => map2 (· ∨ ·) x y
/-- `jnp.where(c, a, b)` -/
noncomputable def where_ (c : EP) (a b : E) : E := Except.bind (α := Arr Prop) c fun m => Except.bind a fun x => Except.bind b fun y => Nd.where_ m x y
/-- `jnp.zeros_like(a)` -/
def zerosLike (a : E) : E := Except.bind a fun x => .ok (Nd.zerosLike x)

noncomputable instance : Add E := ⟨lift2 (· + ·)⟩
noncomputable instance : Sub E := ⟨lift2 (· - ·)⟩
noncomputable instance : Mul E := ⟨lift2 (· * ·)⟩
noncomputable instance : Div E := ⟨lift2 (· / ·)⟩
noncomputable instance : Neg E := ⟨lift1 (-·)⟩
noncomputable instance : HPow E E E := ⟨lift2 fun x y => x ^ y⟩
noncomputable instance : HPow E ℕ E := ⟨fun a n => lift1 (· ^ n) a⟩
noncomputable instance (n : ℕ) [OfNat ℝ n] : OfNat E n := ⟨lit (OfNat.ofNat n)⟩
noncomputable instance : OfScientific E := ⟨fun m s e => lit (OfScientific.ofScientific m s e)⟩
/-- `a < b` -/
def lt (a b : E) : EP := rel2 (· < ·) a b
/-- `a > b` -/
def gt (a b : E) : EP := rel2 (· > ·) a b
/-- `jnp.exp`, `lax.exp` -/
noncomputable def exp (a : E) : E := lift1 Real.exp a
/-- `lax.log` -/
noncomputable def log (a : E) : E := lift1 Real.log a
/-- `jnp.log10` -/
noncomputable def log10 (a : E) : E := lift1 Jnp.log10 a
/-- `jnp.sqrt` -/
noncomputable def sqrt (a : E) : E := lift1 Real.sqrt a
/-- `nn.sigmoid` -/
noncomputable def nnSigmoid (a : E) : E := lift1 Jnp.sigmoid a

end E
end Nd

namespace Dsps.NdElem
open Nd E

/-! ### utils.py -/

/-- utils.py:149-152 `_sigmoid` -/
noncomputable def sigmoid (x x0 k ylo yhi : E) : E :=
  let height_diff := yhi - ylo
  ylo + height_diff * nnSigmoid (k * (x - x0))

/-- utils.py:155-158 `_inverse_sigmoid` -/
noncomputable def inverse_sigmoid (y x0 k ylo yhi : E) : E :=
  let lnarg := (yhi - ylo) / (y - ylo) - 1
  x0 - log lnarg / k

/-- utils.py:161-164 `_sig_slope` -/
noncomputable def sig_slope (x xtp ytp x0 slope_k lo hi : E) : E :=
  let slope := sigmoid x x0 slope_k lo hi
  ytp + slope * (x - xtp)

/-- utils.py:56-63 `_tw_cuml_kern`; `1 / 2` is evaluated by Python -/
noncomputable def tw_cuml_kern (x m h : E) : E :=
  let z := (x - m) / h
  let val := -5 * z ^ 7 / 69984 + 7 * z ^ 5 / 2592 - 35 * z ^ 3 / 864 + 35 * z / 96 + lit (1 / 2)
  let val := where_ (lt z (-3)) 0 val
  let val := where_ (gt z 3) 1 val
  val

/-- utils.py:66-70 `_tw_sigmoid` -/
noncomputable def tw_sigmoid (x x0 tw_h ymin ymax : E) : E :=
  let height_diff := ymax - ymin
  let body := tw_cuml_kern x x0 tw_h
  ymin + height_diff * body

/-- utils.py:73-78 `_triweighted_histogram_kernel` -/
noncomputable def triweighted_histogram_kernel (x sig lo hi : E) : E :=
  let a := tw_cuml_kern x lo sig
  let b := tw_cuml_kern x hi sig
  a - b

/-- utils.py:105-110 `triweight_gaussian` -/
noncomputable def triweight_gaussian (x m h : E) : E :=
  let z := (x - m) / h
  let val := lit (35 / 96) * (1 - (z / 3) ^ 2) ^ 3 / h
  let msk := E.or (lt z (-3)) (gt z 3)
  where_ msk 0 val

/-- utils.py:113-116 `_tw_sig_slope` -/
noncomputable def tw_sig_slope (x xtp ytp x0 tw_h lo hi : E) : E :=
  let slope := tw_sigmoid x x0 tw_h lo hi
  ytp + slope * (x - xtp)

/-- utils.py:193-215 `powerlaw_pdf` -/
noncomputable def powerlaw_pdf (x a b g : E) : E :=
  let ag := a ^ g
  let bg := b ^ g
  g * x ^ (g - 1) / (bg - ag)

/-! ### imf -/

/-- remnant_mass.py:49-53 `_log_remnant_mass`; `remnant_mass` (20-46) calls it with the same arguments -/
noncomputable def log_remnant_mass (lg_age_yr a b lgk1 d e : E) : E :=
  let k1 := (10 : E) ^ lgk1
  let xtp := b
  (10 : E) ^ sig_slope lg_age_yr xtp a b k1 d e

/-- surviving_mstar.py:63-71 `_returned_mass` -/
noncomputable def returned_mass (lg_age_yr a b lgk1 d e f lgk2 h : E) : E :=
  let k1 := (10 : E) ^ lgk1
  let xtp := b
  let z := sig_slope lg_age_yr xtp a b k1 d e
  let k2 := (10 : E) ^ lgk2
  let h := sigmoid lg_age_yr f k2 h z
  h

/-- surviving_mstar.py:30-60 `surviving_mstar` -/
noncomputable def surviving_mstar (lg_age_yr a b lgk1 d e f lgk2 h : E) : E :=
  let frac_returned := returned_mass lg_age_yr a b lgk1 d e f lgk2 h
  1 - frac_returned

/-! ### metallicity/mzr.py -/

/-- mzr.py:50-64 `mzr_model_t0` -/
noncomputable def mzr_model_t0 (logsm mzr_t0_y0 mzr_t0_x0 mzr_t0_k mzr_t0_slope_lo mzr_t0_slope_hi : E) : E :=
  let mzr_t0_xtp := mzr_t0_x0
  let mzr_t0 := sig_slope logsm mzr_t0_xtp mzr_t0_y0 mzr_t0_x0 mzr_t0_k mzr_t0_slope_lo mzr_t0_slope_hi
  mzr_t0 + lit Mzr.LGMET_SOLAR

/-- mzr.py:67-71 `maiolino08_metallicity_evolution` -/
noncomputable def maiolino08_metallicity_evolution (logsm logm0 k0 : E) : E :=
  let x := logsm - logm0
  let xsq := x * x
  (lit (-12.0) - 0.0864 * xsq + k0)

/-- mzr.py:74-80 `_delta_logz_vs_t_lookback` -/
noncomputable def delta_logz_vs_t_lookback (t_lookback y_at_tc tc early_time_slope k : E) : E :=
  let late_time_slope := y_at_tc / tc
  let xtp := tc
  sig_slope t_lookback xtp y_at_tc tc k late_time_slope early_time_slope

/-- mzr.py:83-119 `_get_p_at_lgmstar` and `_delta_logz_at_t_lookback` -/
noncomputable def delta_logz_at_t_lookback
    (lgmstar t_lookback c0_y_at_tlook_c c1_y_at_tlook_c tlook_c c0_early_time_slope c1_early_time_slope : E) : E :=
  let y_at_tlook_c := c0_y_at_tlook_c + c1_y_at_tlook_c * lgmstar
  let tlook_c := tlook_c + zerosLike lgmstar
  let early_time_slope := c0_early_time_slope + c1_early_time_slope * lgmstar
  let logZ_reduction := delta_logz_vs_t_lookback t_lookback y_at_tlook_c tlook_c early_time_slope (lit Mzr.MZR_EVOL_K)
  where_ (gt logZ_reduction 0) 0 logZ_reduction

/-- mzr.py:122-143 `mzr_evolution_model` -/
noncomputable def mzr_evolution_model
    (logsm cosmic_time c0_y_at_tlook_c c1_y_at_tlook_c tlook_c c0_early_time_slope c1_early_time_slope : E) : E :=
  let t_lookback := lit Mzr.MZR_EVOL_T0 - cosmic_time
  let t_lookback := where_ (lt t_lookback 0) 0 t_lookback
  delta_logz_at_t_lookback logsm t_lookback c0_y_at_tlook_c c1_y_at_tlook_c tlook_c c0_early_time_slope c1_early_time_slope

/-- mzr.py:146-173 `mzr_model` -/
noncomputable def mzr_model (logsm t mzr_t0_y0 mzr_t0_x0 mzr_t0_k mzr_t0_slope_lo mzr_t0_slope_hi c0_y_at_tlook_c
    c1_y_at_tlook_c tlook_c c0_early_time_slope c1_early_time_slope : E) : E :=
  let lgmet_at_t0 := mzr_model_t0 logsm mzr_t0_y0 mzr_t0_x0 mzr_t0_k mzr_t0_slope_lo mzr_t0_slope_hi
  let logZ_reduction := mzr_evolution_model logsm t c0_y_at_tlook_c c1_y_at_tlook_c tlook_c c0_early_time_slope c1_early_time_slope
  lgmet_at_t0 + logZ_reduction

/-! ### dust/att_curves.py -/

/-- att_curves.py:435-444 `_att_curve_from_k_lambda` -/
noncomputable def att_curve_from_k_lambda (k_lambda av : E) : E :=
  let att_curve := av * k_lambda / lit Dust.RV_C00
  let att_curve := where_ (lt att_curve 0) 0 att_curve
  att_curve

/-- att_curves.py:31-71 `_frac_transmission_from_k_lambda` -/
noncomputable def frac_transmission_from_k_lambda (k_lambda av ftrans_floor : E) : E :=
  let A_lambda := att_curve_from_k_lambda k_lambda av
  let ftrans := (10 : E) ^ (lit (-0.4) * A_lambda)
  let ftrans := ftrans_floor + (1 - ftrans_floor) * ftrans
  ftrans

/-- att_curves.py:364-385 `calzetti00_k_lambda` -/
noncomputable def calzetti00_k_lambda (wave_micron : E) : E :=
  let y := 1 / wave_micron
  let k1 := 2.659 * (lit (-2.156) + 1.509 * y - 0.198 * y ^ 2 + 0.011 * y ^ 3) + lit Dust.RV_C00
  let k2 := 2.659 * (lit (-1.857) + 1.040 * y) + lit Dust.RV_C00
  let k_lambda := where_ (lt wave_micron 0.63) k1 k2
  k_lambda

/-- att_curves.py:388-407 `leitherer02_k_lambda` -/
noncomputable def leitherer02_k_lambda (wave_micron : E) : E :=
  let y := 1 / wave_micron
  let k_lambda := 5.472 + (0.671 * y - 9.218 * 1e-3 * y ^ 2 + 2.620 * 1e-3 * y ^ 3)
  k_lambda

/-- att_curves.py:74-98 `_l02_below_c00_above` -/
noncomputable def l02_below_c00_above (wave_micron xc : E) : E :=
  let k_lambda_c00 := calzetti00_k_lambda wave_micron
  let k_lambda_l02 := leitherer02_k_lambda wave_micron
  let k_lambda := where_ (gt wave_micron xc) k_lambda_c00 k_lambda_l02
  k_lambda

/-- att_curves.py:101-123 `power_law_vband_norm` -/
noncomputable def power_law_vband_norm (wave_micron plaw_slope vband_micron : E) : E :=
  let x := wave_micron / vband_micron
  x ^ plaw_slope

/-- att_curves.py:447-454 `_drude_bump` -/
noncomputable def drude_bump (x x0 gamma ampl : E) : E :=
  let bump := x ^ 2 * gamma ^ 2 / ((x ^ 2 - x0 ^ 2) ^ 2 + x ^ 2 * gamma ^ 2)
  ampl * bump

/-- att_curves.py:173-216 `noll09_k_lambda` -/
noncomputable def noll09_k_lambda (wave_micron uv_bump_ampl plaw_slope uv_bump uv_bump_width : E) : E :=
  let k_lambda := l02_below_c00_above wave_micron 0.15
  let k_lambda := k_lambda + drude_bump wave_micron uv_bump uv_bump_width uv_bump_ampl
  let k_lambda := k_lambda * power_law_vband_norm wave_micron plaw_slope 0.55
  let k_lambda := where_ (lt k_lambda 0) 0 k_lambda
  k_lambda

/-- att_curves.py:126-170 `noll09_k_att_curve` -/
noncomputable def noll09_k_att_curve (wave_micron av uv_bump_ampl plaw_slope uv_bump uv_bump_width : E) : E :=
  let k_lambda := noll09_k_lambda wave_micron uv_bump_ampl plaw_slope uv_bump uv_bump_width
  att_curve_from_k_lambda k_lambda av

/-- att_curves.py:266-309 `sbl18_k_lambda` -/
noncomputable def sbl18_k_lambda (wave_micron uv_bump_ampl plaw_slope uv_bump uv_bump_width : E) : E :=
  let k_lambda := l02_below_c00_above wave_micron 0.15
  let k_lambda := k_lambda * power_law_vband_norm wave_micron plaw_slope 0.55
  let k_lambda := k_lambda + drude_bump wave_micron uv_bump uv_bump_width uv_bump_ampl
  let k_lambda := where_ (lt k_lambda 0) 0 k_lambda
  k_lambda

/-- att_curves.py:219-263 `sbl18_k_att_curve` -/
noncomputable def sbl18_k_att_curve (wave_micron av uv_bump_ampl plaw_slope uv_bump uv_bump_width : E) : E :=
  let k_lambda := sbl18_k_lambda wave_micron uv_bump_ampl plaw_slope uv_bump uv_bump_width
  att_curve_from_k_lambda k_lambda av

/-- att_curves.py:312-335 `calzetti00_att_curve` -/
noncomputable def calzetti00_att_curve (wave_micron av : E) : E := att_curve_from_k_lambda (calzetti00_k_lambda wave_micron) av

/-- att_curves.py:338-361 `leitherer02_att_curve` -/
noncomputable def leitherer02_att_curve (wave_micron av : E) : E := att_curve_from_k_lambda (leitherer02_k_lambda wave_micron) av

/-- att_curves.py:410-432 `triweight_k_lambda` -/
noncomputable def triweight_k_lambda (wave_micron xtp ytp x0 tw_h lo hi : E) : E :=
  let lgx := log10 wave_micron
  let lgk_lambda := tw_sig_slope lgx xtp ytp x0 tw_h lo hi
  let k_lambda := (10 : E) ^ lgk_lambda
  k_lambda

/-- att_curves.py:457-460 `_get_eb_from_delta` -/
noncomputable def get_eb_from_delta (delta : E) : E := lit (-1.9) * delta + 0.85

/-! ### dust/blackbody.py -/

/-- blackbody.py:74-80 `_freq_density_denom` -/
noncomputable def freq_density_denom (freq_hz temp_kelvin : E) : E :=
  let hnu := lit Blackbody.H_PLANCK * freq_hz
  let kt := lit Blackbody.K_BOLTZ * temp_kelvin
  let x := hnu / kt
  1 / (exp x - 1)

/-- blackbody.py:25-45, 83-96 `blackbody_freq_density`, `_jax_bb_freq_density_exparg`, `_blackbody_freq_density_si` -/
noncomputable def blackbody_freq_density (freq_hz temp_kelvin : E) : E :=
  let lg_term1 := lit (Blackbody.LG2 + Blackbody.LGH - 2 * Blackbody.LGC)
  let lg_term2 := 3 * log freq_hz
  let exparg := lg_term1 + lg_term2
  let denom := freq_density_denom freq_hz temp_kelvin
  let bb_si := denom * exp exparg
  bb_si / lit Blackbody.WATTS_PER_LSUN

/-- blackbody.py:113-119 `_wave_density_denom` -/
noncomputable def wave_density_denom (wave_meters temp_kelvin : E) : E :=
  let hc := lit (Blackbody.H_PLANCK * Blackbody.C_SPEED)
  let kt := lit Blackbody.K_BOLTZ * temp_kelvin
  let x := hc / kt / wave_meters
  1 / (exp x - 1)

/-- blackbody.py:48-71, 122-131 `blackbody_wave_density`, `_blackbody_wave_density_si` -/
noncomputable def blackbody_wave_density (wave_aa temp_kelvin : E) : E :=
  let wave_m := wave_aa / 1e10
  let denom_factor := wave_density_denom wave_m temp_kelvin
  let lg_term1 := lit (Blackbody.LG2 + Blackbody.LGH + 2 * Blackbody.LGC)
  let lg_term2 := 5 * log wave_m
  let exparg := lg_term1 - lg_term2
  let wave_factor := exp exparg
  let bb_si := wave_factor * denom_factor
  let bb_lsun_per_m := bb_si / lit Blackbody.WATTS_PER_LSUN
  bb_lsun_per_m * 1e-10

/-! ### cosmology/flat_wcdm.py, with array-valued cosmological parameters -/

/-- flat_wcdm.py:48-52 `_rho_de_z` -/
noncomputable def rho_de_z (z w0 wa : E) : E :=
  let a := 1.0 / (1.0 + z)
  a ^ (lit (-3.0) * (1.0 + w0 + wa)) * exp (lit (-3.0) * wa * (1.0 - a))

/-- flat_wcdm.py:55-61 `_Ez` -/
noncomputable def Ez (z Om0 w0 wa : E) : E :=
  let zp1 := 1.0 + z
  let Ode0 := 1.0 - Om0
  let t := Om0 * zp1 ^ 3 + Ode0 * rho_de_z z w0 wa
  sqrt t

/-- flat_wcdm.py:185-189 `_hubble_time` -/
noncomputable def hubble_time (z Om0 w0 wa h : E) : E :=
  let E0 := Ez z Om0 w0 wa
  lit (1e-16 * FlatWcdm.MPC / FlatWcdm.YEAR) / h / E0

/-- flat_wcdm.py:283-307 `rho_crit` -/
noncomputable def rho_crit (redshift Om0 w0 wa h : E) : E :=
  let rho_crit0 := lit FlatWcdm.RHO_CRIT0_KPC3_UNITY_H * h * h
  rho_crit0 * Ez redshift Om0 w0 wa ^ 2

/-- flat_wcdm.py:310-313 `_Om_at_z` -/
noncomputable def Om_at_z (z Om0 w0 wa : E) : E :=
  let E0 := Ez z Om0 w0 wa
  Om0 * (1.0 + z) ^ 3 / E0 / E0

/-! ### metallicity/umzr.py -/

namespace Umzr

/-- umzr.py:83-96 `mzr_model_t0` -/
noncomputable def mzr_model_t0 (logsm mzr_t0_ytp mzr_t0_x0 mzr_t0_k mzr_t0_slope_lo mzr_t0_slope_hi : E) : E :=
  let mzr_t0 := sig_slope logsm (lit Dsps.Umzr.MZR_T0_XTP) mzr_t0_ytp mzr_t0_x0 mzr_t0_k mzr_t0_slope_lo mzr_t0_slope_hi
  mzr_t0 + lit Dsps.Umzr.LGMET_SOLAR

/-- umzr.py:99-104 `_delta_logz_vs_t_lookback` -/
noncomputable def delta_logz_vs_t_lookback (t_lookback y_at_tc early_time_slope k : E) : E :=
  let late_time_slope := y_at_tc / lit Dsps.Umzr.TLOOK_C
  sig_slope t_lookback (lit Dsps.Umzr.MZR_DT_XTP) y_at_tc (lit Dsps.Umzr.TLOOK_C) k late_time_slope early_time_slope

/-- umzr.py:107-139 `_get_p_at_lgmstar`, `_delta_logz_at_t_lookback` -/
noncomputable def delta_logz_at_t_lookback
    (lgmstar t_lookback c0_y_at_tlook_c c1_y_at_tlook_c c0_early_time_slope c1_early_time_slope : E) : E :=
  let y_at_tlook_c := c0_y_at_tlook_c + c1_y_at_tlook_c * lgmstar
  let early_time_slope := c0_early_time_slope + c1_early_time_slope * lgmstar
  let logZ_reduction := delta_logz_vs_t_lookback t_lookback y_at_tlook_c early_time_slope (lit Dsps.Umzr.MZR_EVOL_K)
  where_ (gt logZ_reduction 0) 0 logZ_reduction

/-- umzr.py:142-161 `mzr_evolution_model` -/
noncomputable def mzr_evolution_model
    (logsm cosmic_time c0_y_at_tlook_c c1_y_at_tlook_c c0_early_time_slope c1_early_time_slope : E) : E :=
  let t_lookback := lit Dsps.Umzr.MZR_EVOL_T0 - cosmic_time
  let t_lookback := where_ (lt t_lookback 0) 0 t_lookback
  delta_logz_at_t_lookback logsm t_lookback c0_y_at_tlook_c c1_y_at_tlook_c c0_early_time_slope c1_early_time_slope

/-- umzr.py:164-189 `mzr_model` -/
noncomputable def mzr_model (logsm t mzr_t0_ytp mzr_t0_x0 mzr_t0_k mzr_t0_slope_lo mzr_t0_slope_hi c0_y_at_tlook_c c1_y_at_tlook_c
    c0_early_time_slope c1_early_time_slope : E) : E :=
  let lgmet_at_t0 := mzr_model_t0 logsm mzr_t0_ytp mzr_t0_x0 mzr_t0_k mzr_t0_slope_lo mzr_t0_slope_hi
  let logZ_reduction := mzr_evolution_model logsm t c0_y_at_tlook_c c1_y_at_tlook_c c0_early_time_slope c1_early_time_slope
  lgmet_at_t0 + logZ_reduction

/-- umzr.py:206-212 `_get_mzr_t0_slope_hi_from_unbounded` -/
noncomputable def get_mzr_t0_slope_hi_from_unbounded (mzr_t0_slope_lo u_mzr_t0_slope_hi : E) : E :=
  sigmoid u_mzr_t0_slope_hi 0.0 (lit Dsps.Umzr.BOUNDING_K) (lit (Dsps.Umzr.MZR_PBDICT 4).1) mzr_t0_slope_lo

/-- umzr.py:215-220 `_get_u_mzr_t0_slope_hi_from_bounded` -/
noncomputable def get_u_mzr_t0_slope_hi_from_bounded (mzr_t0_slope_lo mzr_t0_slope_hi : E) : E :=
  inverse_sigmoid mzr_t0_slope_hi 0.0 (lit Dsps.Umzr.BOUNDING_K) (lit (Dsps.Umzr.MZR_PBDICT 4).1) mzr_t0_slope_lo

end Umzr

/-! ### sfh/diffburst.py: the parameter transformations -/

/-- diffburst.py:169-175 `_get_lgyr_peak_from_u_lgyr_peak`; `lo`, `hi` and `x0` are Python floats -/
noncomputable def get_lgyr_peak_from_u_lgyr_peak (u_lgyr_peak : E) : E :=
  sigmoid u_lgyr_peak (lit (0.5 * (Diffburst.LGAGE_MAX - Diffburst.DLGAGE_MIN + Diffburst.LGYR_PEAK_MIN))) (lit Diffburst.LGAGE_K)
    (lit Diffburst.LGYR_PEAK_MIN) (lit (Diffburst.LGAGE_MAX - Diffburst.DLGAGE_MIN))

/-- diffburst.py:178-180 `_get_lgfburst_from_u_lgfburst` -/
noncomputable def get_lgfburst_from_u_lgfburst (u_lgfburst : E) : E :=
  sigmoid u_lgfburst (lit Diffburst.LGFB_X0) (lit Diffburst.LGFB_K) (lit Diffburst.LGFBURST_MIN) (lit Diffburst.LGFBURST_MAX)

/-- diffburst.py:183-185 `_get_u_lgfburst_from_lgfburst` -/
noncomputable def get_u_lgfburst_from_lgfburst (lgfburst : E) : E :=
  inverse_sigmoid lgfburst (lit Diffburst.LGFB_X0) (lit Diffburst.LGFB_K) (lit Diffburst.LGFBURST_MIN) (lit Diffburst.LGFBURST_MAX)

/-- diffburst.py:188-193 `_get_lgyr_max_from_lgyr_peak` -/
noncomputable def get_lgyr_max_from_lgyr_peak (lgyr_peak u_lgyr_max : E) : E :=
  let lo := lgyr_peak + lit Diffburst.DLGAGE_MIN
  let hi := lit Diffburst.LGAGE_MAX
  let x0 := 0.5 * (hi + lo)
  sigmoid u_lgyr_max x0 (lit Diffburst.LGAGE_K) lo hi

/-- diffburst.py:196-201 `_get_u_lgyr_peak_from_lgyr_peak` -/
noncomputable def get_u_lgyr_peak_from_lgyr_peak (lgyr_peak : E) : E :=
  inverse_sigmoid lgyr_peak (lit (0.5 * (Diffburst.LGYR_PEAK_MAX + Diffburst.LGYR_PEAK_MIN))) (lit Diffburst.LGAGE_K)
    (lit Diffburst.LGYR_PEAK_MIN) (lit Diffburst.LGYR_PEAK_MAX)

/-- diffburst.py:204-209 `_get_u_lgyr_max_from_lgyr_peak` -/
noncomputable def get_u_lgyr_max_from_lgyr_peak (lgyr_peak lgyr_max : E) : E :=
  let lo := lgyr_peak + lit Diffburst.DLGAGE_MIN
  let hi := lit Diffburst.LGAGE_MAX
  let x0 := 0.5 * (hi + lo)
  inverse_sigmoid lgyr_max x0 (lit Diffburst.LGAGE_K) lo hi

end Dsps.NdElem
