import Verif.Model.RoundedCosmo
import Verif.Model.Blackbody
import Verif.Model.Dust

/-! The blackbody spectrum (`/repo/dsps/dust/blackbody.py`) and the attenuation curves (`/repo/dsps/dust/att_curves.py`) in machine arithmetic (`Verif/Fl.lean`), operation by operation.  `A` is the
arithmetic of JAX's dtype, `P` that of Python's and numpy's own floats (binary64), in which expressions without any traced value are evaluated;
`v` is the accuracy of the library functions `exp`, `log` and `pow`.  Frequency, wavelength, temperature and
the other arguments are machine numbers. -/
namespace Dsps.Rounded
open Fl

variable (P A : Arith) (v : ℝ)

/-- `lax.log(x)`, `np.log(x)`: error `v`, relative, or absolute where the logarithm is smaller than 1. -/
noncomputable def log (x : ℝ) : Set ℝ := {l | |l - Real.log x| ≤ v * max 1 |Real.log x|}

/-- blackbody.py:78-79: the last lines of `_freq_density_denom`, and of `_wave_density_denom` (blackbody.py:117-118):
`1 / (lax.exp(x) - 1)` -/
noncomputable def bose (x : ℝ) : Set ℝ := {out | ∃ e ∈ exp v x, ∃ y ∈ A.sub e 1, out ∈ A.div 1 y}

/-- blackbody.py:74-80 `_freq_density_denom` -/
noncomputable def freq_density_denom (freq_hz temp_kelvin : ℝ) : Set ℝ :=
  {out | ∃ h ∈ lit P A Blackbody.H_PLANCK, ∃ hnu ∈ A.mul h freq_hz, ∃ k ∈ lit P A Blackbody.K_BOLTZ, ∃ kt ∈ A.mul k temp_kelvin,
    ∃ x ∈ A.div hnu kt, out ∈ bose A v x}

/-- blackbody.py:20, :17, :19: `LG2 + LGH`, computed by numpy -/
noncomputable def lg2h : Set ℝ :=
  {s | ∃ a ∈ log v 2, ∃ h ∈ P.rnd Blackbody.H_PLANCK, ∃ b ∈ log v h, s ∈ P.add a b}

/-- blackbody.py:19: `2 * LGC`, computed by numpy -/
noncomputable def twoLgc : Set ℝ :=
  {s | ∃ c ∈ P.rnd Blackbody.C_SPEED, ∃ l ∈ log v c, s ∈ P.mul 2 l}

/-- blackbody.py:83-88 `_jax_bb_freq_density_exparg` -/
noncomputable def jax_bb_freq_density_exparg (freq_hz : ℝ) : Set ℝ :=
  {out | ∃ a ∈ lg2h P v, ∃ b ∈ twoLgc P v, ∃ lg_term1 ∈ conv A (P.sub a b), ∃ l ∈ log v freq_hz, ∃ lg_term2 ∈ A.mul 3 l,
    out ∈ A.add lg_term1 lg_term2}

/-- blackbody.py:91-96 `_blackbody_freq_density_si` -/
noncomputable def blackbody_freq_density_si (freq_hz temp_kelvin : ℝ) : Set ℝ :=
  {out | ∃ exparg ∈ jax_bb_freq_density_exparg P A v freq_hz, ∃ denom ∈ freq_density_denom P A v freq_hz temp_kelvin,
    ∃ e ∈ exp v exparg, out ∈ A.mul denom e}

/-- blackbody.py:25-45 `blackbody_freq_density` -/
noncomputable def blackbody_freq_density (freq_hz temp_kelvin : ℝ) : Set ℝ :=
  {out | ∃ bb_si ∈ blackbody_freq_density_si P A v freq_hz temp_kelvin, ∃ w ∈ lit P A Blackbody.WATTS_PER_LSUN, out ∈ A.div bb_si w}

/-- blackbody.py:113-119 `_wave_density_denom`; `hc` is computed by Python -/
noncomputable def wave_density_denom (wave_meters temp_kelvin : ℝ) : Set ℝ :=
  {out | ∃ h ∈ P.rnd Blackbody.H_PLANCK, ∃ c ∈ P.rnd Blackbody.C_SPEED, ∃ hc ∈ conv A (P.mul h c), ∃ k ∈ lit P A Blackbody.K_BOLTZ,
    ∃ kt ∈ A.mul k temp_kelvin, ∃ q ∈ A.div hc kt, ∃ x ∈ A.div q wave_meters, out ∈ bose A v x}

/-- blackbody.py:122-130 `_blackbody_wave_density_si` -/
noncomputable def blackbody_wave_density_si (wave_m temp_kelvin : ℝ) : Set ℝ :=
  {out | ∃ denom_factor ∈ wave_density_denom P A v wave_m temp_kelvin, ∃ a ∈ lg2h P v, ∃ b ∈ twoLgc P v, ∃ lg_term1 ∈ conv A (P.add a b),
    ∃ l ∈ log v wave_m, ∃ lg_term2 ∈ A.mul 5 l, ∃ exparg ∈ A.sub lg_term1 lg_term2, ∃ wave_factor ∈ exp v exparg,
    out ∈ A.mul wave_factor denom_factor}

/-- blackbody.py:48-71 `blackbody_wave_density` -/
noncomputable def blackbody_wave_density (wave_aa temp_kelvin : ℝ) : Set ℝ :=
  {out | ∃ t ∈ lit P A 1e10, ∃ wave_m ∈ A.div wave_aa t, ∃ bb_si ∈ blackbody_wave_density_si P A v wave_m temp_kelvin,
    ∃ w ∈ lit P A Blackbody.WATTS_PER_LSUN, ∃ bb_lsun_per_m ∈ A.div bb_si w, ∃ m_per_aa ∈ lit P A 1e-10,
    out ∈ A.mul bb_lsun_per_m m_per_aa}

/-! ### att_curves.py -/

/-- a negative literal `-x`: Python negates the binary64 number `x`, which is then converted -/
def negLit (x : ℝ) : Set ℝ := {r | ∃ q ∈ P.rnd x, r ∈ A.rnd (-q)}

/-- att_curves.py:435-444 `_att_curve_from_k_lambda` -/
noncomputable def att_curve_from_k_lambda (k_lambda av : ℝ) : Set ℝ :=
  {out | ∃ p ∈ A.mul av k_lambda, ∃ R ∈ lit P A Dust.RV_C00, ∃ a ∈ A.div p R, out = if a < 0 then 0 else a}

/-- att_curves.py:31-71 `_frac_transmission_from_k_lambda` -/
noncomputable def frac_transmission_from_k_lambda (k_lambda av ftrans_floor : ℝ) : Set ℝ :=
  {out | ∃ A_lambda ∈ att_curve_from_k_lambda P A k_lambda av, ∃ c ∈ negLit P A 0.4, ∃ m ∈ A.mul c A_lambda, ∃ ftrans ∈ exp10 v m,
    ∃ g ∈ A.sub 1 ftrans_floor, ∃ q ∈ A.mul g ftrans, out ∈ A.add ftrans_floor q}

/-- att_curves.py:380: `2.659 * (-2.156 + 1.509 * y - 0.198 * y**2 + 0.011 * y**3) + RV_C00` -/
noncomputable def c00_blue (y : ℝ) : Set ℝ :=
  {out | ∃ c0 ∈ negLit P A 2.156, ∃ c1 ∈ lit P A 1.509, ∃ t1 ∈ A.mul c1 y, ∃ s1 ∈ A.add c0 t1,
    ∃ c2 ∈ lit P A 0.198, ∃ y2, IntPow A y 2 y2 ∧ ∃ t2 ∈ A.mul c2 y2, ∃ s2 ∈ A.sub s1 t2,
    ∃ c3 ∈ lit P A 0.011, ∃ y3, IntPow A y 3 y3 ∧ ∃ t3 ∈ A.mul c3 y3, ∃ s3 ∈ A.add s2 t3,
    ∃ f ∈ lit P A 2.659, ∃ p ∈ A.mul f s3, ∃ R ∈ lit P A Dust.RV_C00, out ∈ A.add p R}

/-- att_curves.py:381: `2.659 * (-1.857 + 1.040 * y) + RV_C00` -/
noncomputable def c00_red (y : ℝ) : Set ℝ :=
  {out | ∃ c0 ∈ negLit P A 1.857, ∃ c1 ∈ lit P A 1.040, ∃ t1 ∈ A.mul c1 y, ∃ s1 ∈ A.add c0 t1,
    ∃ f ∈ lit P A 2.659, ∃ p ∈ A.mul f s1, ∃ R ∈ lit P A Dust.RV_C00, out ∈ A.add p R}

/-- att_curves.py:364-385 `calzetti00_k_lambda` -/
noncomputable def calzetti00_k_lambda (wave_micron : ℝ) : Set ℝ :=
  {out | ∃ y ∈ A.div 1 wave_micron, ∃ k1 ∈ c00_blue P A y, ∃ k2 ∈ c00_red P A y, ∃ b ∈ lit P A 0.63,
    out = if wave_micron < b then k1 else k2}

/-- att_curves.py:388-407 `leitherer02_k_lambda`; `9.218 * 1e-3` and `2.620 * 1e-3` are evaluated by Python -/
noncomputable def leitherer02_k_lambda (wave_micron : ℝ) : Set ℝ :=
  {out | ∃ y ∈ A.div 1 wave_micron, ∃ c0 ∈ lit P A 5.472, ∃ c1 ∈ lit P A 0.671, ∃ t1 ∈ A.mul c1 y,
    ∃ a2 ∈ P.rnd 9.218, ∃ m ∈ P.rnd 1e-3, ∃ c2 ∈ conv A (P.mul a2 m), ∃ y2, IntPow A y 2 y2 ∧ ∃ t2 ∈ A.mul c2 y2, ∃ s2 ∈ A.sub t1 t2,
    ∃ a3 ∈ P.rnd 2.620, ∃ c3 ∈ conv A (P.mul a3 m), ∃ y3, IntPow A y 3 y3 ∧ ∃ t3 ∈ A.mul c3 y3, ∃ s3 ∈ A.add s2 t3,
    out ∈ A.add c0 s3}

/-- att_curves.py:74-98 `_l02_below_c00_above` with its default `xc = 0.15`, the only value used -/
noncomputable def l02_below_c00_above (wave_micron : ℝ) : Set ℝ :=
  {out | ∃ kc ∈ calzetti00_k_lambda P A wave_micron, ∃ kl ∈ leitherer02_k_lambda P A wave_micron, ∃ xc ∈ lit P A 0.15,
    out = if wave_micron > xc then kc else kl}

/-- att_curves.py:101-123 `power_law_vband_norm` with its default `vband_micron = 0.55` -/
noncomputable def power_law_vband_norm (wave_micron plaw_slope : ℝ) : Set ℝ :=
  {out | ∃ vb ∈ lit P A 0.55, ∃ x ∈ A.div wave_micron vb, out ∈ pow v x plaw_slope}

/-- att_curves.py:447-454 `_drude_bump`; the product `x**2 * gamma**2` occurs twice and may be rounded differently (fused multiply-add) -/
noncomputable def drude_bump (x x0 gamma ampl : ℝ) : Set ℝ :=
  {out | ∃ x2 ∈ A.mul x x, ∃ g2 ∈ A.mul gamma gamma, ∃ num ∈ A.mul x2 g2, ∃ z2 ∈ A.mul x0 x0, ∃ d ∈ A.sub x2 z2, ∃ dd ∈ A.mul d d,
    ∃ num' ∈ A.mul x2 g2, ∃ den ∈ A.add dd num', ∃ bump ∈ A.div num den, out ∈ A.mul ampl bump}

/-- att_curves.py:173-216 `noll09_k_lambda` with the default bump position and width -/
noncomputable def noll09_k_lambda (wave_micron uv_bump_ampl plaw_slope : ℝ) : Set ℝ :=
  {out | ∃ k0 ∈ l02_below_c00_above P A wave_micron, ∃ x0 ∈ lit P A Dust.UV_BUMP_W0, ∃ g ∈ lit P A Dust.UV_BUMP_DW,
    ∃ b ∈ drude_bump A wave_micron x0 g uv_bump_ampl, ∃ k1 ∈ A.add k0 b, ∃ p ∈ power_law_vband_norm P A v wave_micron plaw_slope,
    ∃ k2 ∈ A.mul k1 p, out = if k2 < 0 then 0 else k2}

/-- att_curves.py:266-309 `sbl18_k_lambda` with the default bump position and width -/
noncomputable def sbl18_k_lambda (wave_micron uv_bump_ampl plaw_slope : ℝ) : Set ℝ :=
  {out | ∃ k0 ∈ l02_below_c00_above P A wave_micron, ∃ p ∈ power_law_vband_norm P A v wave_micron plaw_slope, ∃ k1 ∈ A.mul k0 p,
    ∃ x0 ∈ lit P A Dust.UV_BUMP_W0, ∃ g ∈ lit P A Dust.UV_BUMP_DW, ∃ b ∈ drude_bump A wave_micron x0 g uv_bump_ampl, ∃ k2 ∈ A.add k1 b,
    out = if k2 < 0 then 0 else k2}

end Dsps.Rounded
