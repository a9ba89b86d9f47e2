import Verif.Lemmas.Blackbody
import Mathlib.NumberTheory.ZetaValues
import Mathlib.MeasureTheory.Integral.IntegralEqImproper
import Mathlib.MeasureTheory.Integral.Gamma
import Verif.Cases

/-! C60, C61 and C74: blackbody radiation. -/
namespace Dsps.Props
open Dsps.Blackbody Dsps.Lemmas Set Spec

/-- the SI constants -/
theorem h_pos : 0 < H_PLANCK := by unfold H_PLANCK; norm_num
theorem k_pos : 0 < K_BOLTZ := by unfold K_BOLTZ; norm_num
theorem c_pos : 0 < C_SPEED := by unfold C_SPEED; norm_num

/-! ### C60 -/

theorem freq_eq {nu : ℝ} (hnu : 0 < nu) (T : ℝ) :
    blackbody_freq_density_si nu T = planckNu H_PLANCK K_BOLTZ C_SPEED nu T := by
  have e : Real.exp (jax_bb_freq_density_exparg nu) = 2 * H_PLANCK * nu ^ 3 / C_SPEED ^ 2 := by
    unfold jax_bb_freq_density_exparg LG2 LGH LGC
    simp only
    have h1 : Real.log 2 + Real.log H_PLANCK - 2 * Real.log C_SPEED + 3 * Real.log nu
        = Real.log (2 * H_PLANCK * nu ^ 3 / C_SPEED ^ 2) := by
      rw [Real.log_div (by have := h_pos; positivity) (by have := c_pos; positivity),
        Real.log_mul (by have := h_pos; positivity) (by positivity), Real.log_mul (by norm_num) h_pos.ne',
        Real.log_pow, Real.log_pow]
      push_cast; ring
    rw [h1, Real.exp_log (by have := h_pos; have := c_pos; positivity)]
  unfold blackbody_freq_density_si
  simp only
  rw [e]
  unfold freq_density_denom planckNu
  simp only
  ring

theorem wave_eq {lam : ℝ} (hl : 0 < lam) (T : ℝ) :
    blackbody_wave_density_si lam T = planckLambda H_PLANCK K_BOLTZ C_SPEED lam T := by
  have e : Real.exp (LG2 + LGH + 2 * LGC - 5 * Real.log lam) = 2 * H_PLANCK * C_SPEED ^ 2 / lam ^ 5 := by
    unfold LG2 LGH LGC
    have h1 : Real.log 2 + Real.log H_PLANCK + 2 * Real.log C_SPEED - 5 * Real.log lam
        = Real.log (2 * H_PLANCK * C_SPEED ^ 2 / lam ^ 5) := by
      rw [Real.log_div (by have := h_pos; have := c_pos; positivity) (by positivity),
        Real.log_mul (by have := h_pos; positivity) (by have := c_pos; positivity), Real.log_mul (by norm_num) h_pos.ne',
        Real.log_pow, Real.log_pow]
      push_cast; ring
    rw [h1, Real.exp_log (by have := h_pos; have := c_pos; positivity)]
  unfold blackbody_wave_density_si
  simp only
  rw [e]
  unfold wave_density_denom planckLambda
  simp only
  rw [div_div, mul_comm (K_BOLTZ * T) lam, ← mul_assoc]

/-- C60: both densities are Planck's law with the CODATA constants, divided by the solar luminosity in watts;
the wavelength version takes and returns Ångström units. -/
theorem C60_planck {x : ℝ} (hx : 0 < x) (T : ℝ) :
    blackbody_freq_density x T = planckNu 6.62607015e-34 1.380649e-23 299792458 x T / 3.828e26 ∧
    blackbody_wave_density x T
      = planckLambda 6.62607015e-34 1.380649e-23 299792458 (x * 1e-10) T / 3.828e26 * 1e-10 := by
  have hh : H_PLANCK = 6.62607015e-34 := rfl
  have hk : K_BOLTZ = 1.380649e-23 := rfl
  have hc : C_SPEED = 299792458 := by unfold C_SPEED; norm_num
  unfold blackbody_freq_density blackbody_wave_density WATTS_PER_LSUN
  simp only
  rw [freq_eq hx, wave_eq (by positivity), hh, hk, hc]
  refine ⟨rfl, ?_⟩
  rw [show x / 1e10 = x * 1e-10 by ring]

/-- case: 5000 Å (or 5000 Hz) and 5800 K -/
example := C60_planck (x := 5000) (by norm_num) 5800

/-- C60: `ν L_ν = λ L_λ` for `λ ν = c`, in SI units and in the Lsun units (wavelength in Ångström). -/
theorem C60_consistent {nu lam : ℝ} (hnu : 0 < nu) (hl : lam * nu = 299792458) (T : ℝ) :
    nu * blackbody_freq_density_si nu T = lam * blackbody_wave_density_si lam T ∧
    nu * blackbody_freq_density nu T = (1e10 * lam) * blackbody_wave_density (1e10 * lam) T := by
  have hl0 : 0 < lam := by
    by_contra h
    have : lam * nu ≤ 0 := mul_nonpos_of_nonpos_of_nonneg (not_lt.1 h) hnu.le
    linarith
  have hc : C_SPEED = lam * nu := by rw [hl]; unfold C_SPEED; norm_num
  have e : nu * blackbody_freq_density_si nu T = lam * blackbody_wave_density_si lam T := by
    rw [freq_eq hnu, wave_eq hl0]
    unfold planckNu planckLambda
    have e2 : H_PLANCK * C_SPEED / (lam * K_BOLTZ * T) = H_PLANCK * nu / (K_BOLTZ * T) := by
      rw [hc, mul_assoc lam, show H_PLANCK * (lam * nu) = lam * (H_PLANCK * nu) by ring, mul_div_mul_left _ _ hl0.ne']
    rw [e2, hc]
    field_simp
  refine ⟨e, ?_⟩
  unfold blackbody_freq_density blackbody_wave_density
  simp only
  have e3 : 1e10 * lam / 1e10 = lam := by norm_num
  rw [e3, ← mul_div_assoc, e]
  ring

/-- case: 2 Hz and 149896229 m -/
example := C60_consistent (nu := 2) (lam := 149896229) (by norm_num) (by norm_num) 5800

/-- C60: both are positive for positive frequency, wavelength and temperature. -/
theorem C60_positive {x T : ℝ} (hx : 0 < x) (hT : 0 < T) :
    0 < blackbody_freq_density x T ∧ 0 < blackbody_wave_density x T := by
  have hh := h_pos
  have hk := k_pos
  have hc := c_pos
  have hW : 0 < WATTS_PER_LSUN := by unfold WATTS_PER_LSUN; norm_num
  unfold blackbody_freq_density blackbody_wave_density
  simp only
  rw [freq_eq hx, wave_eq (by positivity)]
  unfold planckNu planckLambda
  have h1 : 0 < Real.exp (H_PLANCK * x / (K_BOLTZ * T)) - 1 := expm1_pos (by positivity)
  have h2 : 0 < Real.exp (H_PLANCK * C_SPEED / (x / 1e10 * K_BOLTZ * T)) - 1 := expm1_pos (by positivity)
  constructor <;> positivity

/-- case: 5000 Å and 5800 K -/
example := C60_positive (x := 5000) (T := 5800) (by norm_num) (by norm_num)

/-! ### C61 -/

/-- C61: a hotter blackbody is strictly brighter at every frequency and wavelength. -/
theorem C61_increasing_in_temperature {x T T' : ℝ} (hx : 0 < x) (hT : 0 < T) (h : T < T') :
    blackbody_freq_density x T < blackbody_freq_density x T' ∧
    blackbody_wave_density x T < blackbody_wave_density x T' := by
  have hh := h_pos
  have hk := k_pos
  have hc := c_pos
  have hT' := hT.trans h
  have hW : 0 < WATTS_PER_LSUN := by unfold WATTS_PER_LSUN; norm_num
  have hx' : 0 < x / 1e10 := by positivity
  unfold blackbody_freq_density blackbody_wave_density
  simp only
  rw [freq_eq hx, wave_eq hx', freq_eq hx, wave_eq hx']
  generalize x / 1e10 = l at *
  unfold planckNu planckLambda
  have h1 : 0 < Real.exp (H_PLANCK * x / (K_BOLTZ * T')) - 1 := expm1_pos (by positivity)
  have h2 : 0 < Real.exp (H_PLANCK * C_SPEED / (l * K_BOLTZ * T')) - 1 := expm1_pos (by positivity)
  have h3 : Real.exp (H_PLANCK * x / (K_BOLTZ * T')) - 1 < Real.exp (H_PLANCK * x / (K_BOLTZ * T)) - 1 := by
    apply sub_lt_sub_right; apply Real.exp_lt_exp.2; gcongr
  have h4 : Real.exp (H_PLANCK * C_SPEED / (l * K_BOLTZ * T')) - 1
      < Real.exp (H_PLANCK * C_SPEED / (l * K_BOLTZ * T)) - 1 := by
    apply sub_lt_sub_right; apply Real.exp_lt_exp.2; gcongr
  have h5 := one_div_lt_one_div_of_lt h1 h3
  have h6 := one_div_lt_one_div_of_lt h2 h4
  constructor <;> gcongr

/-- case: 5800 K and 10000 K -/
example := C61_increasing_in_temperature (x := 5000) (T := 5800) (T' := 10000) (by norm_num) (by norm_num) (by norm_num)

/-- C61: the density lies strictly below the Rayleigh–Jeans law `2ν²kT/c²` and above its product with `e^{-hν/kT}`
(so it tends to Rayleigh–Jeans at low frequency), and strictly above the Wien law `2hν³/c² e^{-hν/kT}`. -/
theorem C61_rayleigh_jeans_wien {nu T : ℝ} (hnu : 0 < nu) (hT : 0 < T) :
    blackbody_freq_density_si nu T < 2 * nu ^ 2 * K_BOLTZ * T / C_SPEED ^ 2 ∧
    2 * nu ^ 2 * K_BOLTZ * T / C_SPEED ^ 2 * Real.exp (-(H_PLANCK * nu / (K_BOLTZ * T))) < blackbody_freq_density_si nu T ∧
    2 * H_PLANCK * nu ^ 3 / C_SPEED ^ 2 * Real.exp (-(H_PLANCK * nu / (K_BOLTZ * T))) < blackbody_freq_density_si nu T := by
  have hh := h_pos
  have hk := k_pos
  have hc := c_pos
  rw [freq_eq hnu]
  unfold planckNu
  have hx : 0 < H_PLANCK * nu / (K_BOLTZ * T) := by positivity
  have e : 2 * nu ^ 2 * K_BOLTZ * T / C_SPEED ^ 2
      = 2 * H_PLANCK * nu ^ 3 / C_SPEED ^ 2 * (1 / (H_PLANCK * nu / (K_BOLTZ * T))) := by field_simp
  rw [e]
  generalize H_PLANCK * nu / (K_BOLTZ * T) = x at *
  have hp : 0 < 2 * H_PLANCK * nu ^ 3 / C_SPEED ^ 2 := by positivity
  have h1 := expm1_pos hx
  have h2 : x < Real.exp x - 1 := by have := Real.add_one_lt_exp hx.ne'; linarith
  have h3 : Real.exp x - 1 < x * Real.exp x := by
    have := Real.add_one_lt_exp (neg_ne_zero.2 hx.ne')
    rw [Real.exp_neg] at this
    have hE := Real.exp_pos x
    have h4 : (-x + 1) * Real.exp x < 1 := by
      have := mul_lt_mul_of_pos_right this hE
      rwa [inv_mul_cancel₀ hE.ne'] at this
    linarith
  refine ⟨?_, ?_, ?_⟩
  · exact mul_lt_mul_of_pos_left (one_div_lt_one_div_of_lt hx h2) hp
  · rw [mul_assoc]
    apply mul_lt_mul_of_pos_left _ hp
    rw [Real.exp_neg, ← one_div, one_div_mul_one_div]
    exact one_div_lt_one_div_of_lt h1 h3
  · apply mul_lt_mul_of_pos_left _ hp
    rw [Real.exp_neg, ← one_div]
    exact one_div_lt_one_div_of_lt h1 (by linarith)

/-- case: 6e14 Hz and 5800 K -/
example := C61_rayleigh_jeans_wien (nu := 6e14) (T := 5800) (by norm_num) (by norm_num)

theorem freq_shape {nu T : ℝ} (hnu : 0 < nu) (hT : 0 < T) :
    blackbody_freq_density_si nu T
      = 2 * (K_BOLTZ * T) ^ 3 / (H_PLANCK ^ 2 * C_SPEED ^ 2) * shape 3 (H_PLANCK * nu / (K_BOLTZ * T)) := by
  have hh := h_pos
  have hk := k_pos
  have hc := c_pos
  rw [freq_eq hnu]
  unfold planckNu shape
  rw [div_pow]
  have h1 : 0 < Real.exp (H_PLANCK * nu / (K_BOLTZ * T)) - 1 := expm1_pos (by positivity)
  generalize Real.exp (H_PLANCK * nu / (K_BOLTZ * T)) - 1 = E at *
  field_simp

theorem wave_shape {lam T : ℝ} (hl : 0 < lam) (hT : 0 < T) :
    blackbody_wave_density_si lam T
      = 2 * (K_BOLTZ * T) ^ 5 / (H_PLANCK ^ 4 * C_SPEED ^ 3) * shape 5 (H_PLANCK * C_SPEED / (lam * K_BOLTZ * T)) := by
  have hh := h_pos
  have hk := k_pos
  have hc := c_pos
  rw [wave_eq hl]
  unfold planckLambda shape
  rw [div_pow]
  have h1 : 0 < Real.exp (H_PLANCK * C_SPEED / (lam * K_BOLTZ * T)) - 1 := expm1_pos (by positivity)
  generalize Real.exp (H_PLANCK * C_SPEED / (lam * K_BOLTZ * T)) - 1 = E at *
  field_simp

/-- `h α / k` for the code's `α = 5.879e10`. -/
noncomputable def xpeak : ℝ := H_PLANCK * 5.879e10 / K_BOLTZ

theorem xpeak_val : 2.821475 < xpeak ∧ xpeak < 2.8214751 := by
  unfold xpeak H_PLANCK K_BOLTZ; constructor <;> norm_num

theorem wien3_lo : 0 < wienG 3 (0.999 * xpeak) := by
  have hx := xpeak_val
  apply wienG_pos (a := 2.8187) _ (by linarith) (by linarith)
  unfold wienG
  have h1 := (exp_nat 3).1
  have h2 := Real.one_sub_div_pow_le_exp_neg (n := 16) (t := 0.1813) (by norm_num)
  have e : Real.exp 2.8187 = Real.exp (3 : ℕ) * Real.exp (-0.1813) := exp_of_sub (by norm_num)
  rw [e]
  have h3 : (2.7182818283 : ℝ) ^ 3 * (1 - 0.1813 / (16 : ℕ)) ^ 16 ≤ Real.exp (3 : ℕ) * Real.exp (-0.1813) :=
    mul_le_mul h1 h2 (by norm_num) (Real.exp_pos _).le
  norm_num at h3 ⊢
  linarith

theorem wien3_hi : wienG 3 (1.001 * xpeak) < 0 := by
  have hx := xpeak_val
  apply wienG_neg (b := 2.8242) _ (by norm_num) (by linarith)
  unfold wienG
  have h1 := (exp_nat 3).2
  have h2 := exp_neg_upper (t := 0.1758) (by norm_num) (by norm_num)
  have e : Real.exp 2.8242 = Real.exp (3 : ℕ) * Real.exp (-0.1758) := exp_of_sub (by norm_num)
  rw [e]
  have h3 := mul_le_mul h1 h2 (Real.exp_pos _).le (by norm_num)
  norm_num at h3 ⊢
  linarith

/-- C61: the maximum over frequency is within 0.1 per cent of `_jax_bb_frequency_peak`: the density rises strictly up to
0.999 of it and falls strictly beyond 1.001 of it, at every temperature. -/
theorem C61_wien_peak_frequency {T : ℝ} (hT : 0 < T) :
    StrictMonoOn (fun nu => blackbody_freq_density nu T) (Ioc 0 (0.999 * jax_bb_frequency_peak T)) ∧
    StrictAntiOn (fun nu => blackbody_freq_density nu T) (Ici (1.001 * jax_bb_frequency_peak T)) := by
  have hh := h_pos
  have hk := k_pos
  have hc := c_pos
  have hW : 0 < WATTS_PER_LSUN := by unfold WATTS_PER_LSUN; norm_num
  have hP : 0 < 2 * (K_BOLTZ * T) ^ 3 / (H_PLANCK ^ 2 * C_SPEED ^ 2) := by positivity
  have hpk : 0 < jax_bb_frequency_peak T := by unfold jax_bb_frequency_peak; simp only; positivity
  have hs : ∀ r : ℝ, H_PLANCK * (r * jax_bb_frequency_peak T) / (K_BOLTZ * T) = r * xpeak := by
    intro r; unfold jax_bb_frequency_peak xpeak; simp only; field_simp
  have hp0 : 0 < xpeak := lt_trans (by norm_num) xpeak_val.1
  constructor
  · intro a ha b hb hab
    simp only [blackbody_freq_density]
    rw [freq_shape ha.1 hT, freq_shape hb.1 hT]
    have hz : H_PLANCK * b / (K_BOLTZ * T) ≤ 0.999 * xpeak := by
      rw [← hs]; have := hb.2; gcongr
    have ha0 := ha.1
    have hb0 := hb.1
    have hxy : H_PLANCK * a / (K_BOLTZ * T) < H_PLANCK * b / (K_BOLTZ * T) := by gcongr
    have := shape_increasing (n := 2) wien3_lo (a := 0.999 * xpeak) ⟨by positivity, hxy.le.trans hz⟩ ⟨by positivity, hz⟩ hxy
    norm_num at this
    gcongr
  · intro a ha b hb hab
    have ha0 : 0 < a := lt_of_lt_of_le (by positivity) ha
    have hb0 : 0 < b := ha0.trans hab
    simp only [blackbody_freq_density]
    rw [freq_shape ha0 hT, freq_shape hb0 hT]
    have hz : 1.001 * xpeak ≤ H_PLANCK * a / (K_BOLTZ * T) := by
      rw [← hs]; have : 1.001 * jax_bb_frequency_peak T ≤ a := ha; gcongr
    have hxy : H_PLANCK * a / (K_BOLTZ * T) < H_PLANCK * b / (K_BOLTZ * T) := by gcongr
    have := shape_decreasing (n := 2) wien3_hi (by have := xpeak_val; push_cast; linarith) (by positivity)
      (show _ ∈ Ici (1.001 * xpeak) from hz) (show _ ∈ Ici (1.001 * xpeak) from hz.trans hxy.le) hxy
    norm_num at this
    gcongr

/-- case: 5800 K -/
example := C61_wien_peak_frequency (T := 5800) (by norm_num)

theorem wien5_lo : 0 < wienG 5 (1.76 * xpeak / 1.001) := by
  have hx := xpeak_val
  apply wienG_pos (a := 4.961) _ (div_pos (by linarith) (by norm_num)) (by rw [div_le_iff₀ (by norm_num)]; linarith)
  unfold wienG
  have h1 := (exp_nat 5).1
  have h2 := Real.one_sub_div_pow_le_exp_neg (n := 2) (t := 0.039) (by norm_num)
  have e : Real.exp 4.961 = Real.exp (5 : ℕ) * Real.exp (-0.039) := exp_of_sub (by norm_num)
  rw [e]
  have h3 : (2.7182818283 : ℝ) ^ 5 * (1 - 0.039 / (2 : ℕ)) ^ 2 ≤ Real.exp (5 : ℕ) * Real.exp (-0.039) :=
    mul_le_mul h1 h2 (by norm_num) (Real.exp_pos _).le
  norm_num at h3 ⊢
  linarith

theorem wien5_hi : wienG 5 (1.76 * xpeak / 0.999) < 0 := by
  have hx := xpeak_val
  apply wienG_neg (b := 4.9705) _ (by norm_num) (by rw [le_div_iff₀ (by norm_num)]; linarith)
  unfold wienG
  have h1 := (exp_nat 5).2
  have h2 := exp_neg_upper (t := 0.0295) (by norm_num) (by norm_num)
  have e : Real.exp 4.9705 = Real.exp (5 : ℕ) * Real.exp (-0.0295) := exp_of_sub (by norm_num)
  rw [e]
  have h3 := mul_le_mul h1 h2 (Real.exp_pos _).le (by norm_num)
  norm_num at h3 ⊢
  linarith

/-- C61: likewise the maximum over wavelength is within 0.1 per cent of `_jax_bb_wavelength_peak`. -/
theorem C61_wien_peak_wavelength {T : ℝ} (hT : 0 < T) :
    StrictMonoOn (fun lam => blackbody_wave_density_si lam T) (Ioc 0 (0.999 * jax_bb_wavelength_peak T)) ∧
    StrictAntiOn (fun lam => blackbody_wave_density_si lam T) (Ici (1.001 * jax_bb_wavelength_peak T)) := by
  have hh := h_pos
  have hk := k_pos
  have hc := c_pos
  have hP : 0 < 2 * (K_BOLTZ * T) ^ 5 / (H_PLANCK ^ 4 * C_SPEED ^ 3) := by positivity
  have hpk : 0 < jax_bb_wavelength_peak T := by
    unfold jax_bb_wavelength_peak jax_bb_frequency_peak; simp only; positivity
  have hs : ∀ r : ℝ, 0 < r → H_PLANCK * C_SPEED / ((r * jax_bb_wavelength_peak T) * K_BOLTZ * T) = 1.76 * xpeak / r := by
    intro r hr
    unfold jax_bb_wavelength_peak jax_bb_frequency_peak xpeak
    simp only
    field_simp
  have hp0 : 0 < xpeak := lt_trans (by norm_num) xpeak_val.1
  constructor
  · intro a ha b hb hab
    have ha0 := ha.1
    have hb0 := hb.1
    simp only
    rw [wave_shape ha.1 hT, wave_shape hb.1 hT]
    have hz : 1.76 * xpeak / 0.999 ≤ H_PLANCK * C_SPEED / (b * K_BOLTZ * T) := by
      rw [← hs 0.999 (by norm_num)]; have := hb.2; gcongr
    have hxy : H_PLANCK * C_SPEED / (b * K_BOLTZ * T) < H_PLANCK * C_SPEED / (a * K_BOLTZ * T) := by gcongr
    have := shape_decreasing (n := 4) wien5_hi
      (by have := xpeak_val; push_cast; rw [le_div_iff₀ (by norm_num)]; linarith) (by positivity)
      (show _ ∈ Ici (1.76 * xpeak / 0.999) from hz) (show _ ∈ Ici (1.76 * xpeak / 0.999) from hz.trans hxy.le) hxy
    norm_num at this
    gcongr
  · intro a ha b hb hab
    have ha0 : 0 < a := lt_of_lt_of_le (by positivity) ha
    have hb0 : 0 < b := ha0.trans hab
    simp only
    rw [wave_shape ha0 hT, wave_shape hb0 hT]
    have hz : H_PLANCK * C_SPEED / (a * K_BOLTZ * T) ≤ 1.76 * xpeak / 1.001 := by
      rw [← hs 1.001 (by norm_num)]; have : 1.001 * jax_bb_wavelength_peak T ≤ a := ha; gcongr
    have hxy : H_PLANCK * C_SPEED / (b * K_BOLTZ * T) < H_PLANCK * C_SPEED / (a * K_BOLTZ * T) := by gcongr
    have := shape_increasing (n := 4) wien5_lo (a := 1.76 * xpeak / 1.001) ⟨by positivity, hxy.le.trans hz⟩
      ⟨by positivity, hz⟩ hxy
    norm_num at this
    gcongr

/-- case: 5800 K -/
example := C61_wien_peak_wavelength (T := 5800) (by norm_num)

/-! ### C74: Stefan–Boltzmann -/

open MeasureTheory in
theorem integral_shape3 : ∫ x in Ioi (0 : ℝ), shape 3 x = Real.pi ^ 4 / 15 := by
  have hI : ∀ m : ℕ, ∫ x in Ioi (0 : ℝ), x ^ (3 : ℕ) * Real.exp (-(((m : ℝ) + 1) * x)) = 6 / ((m : ℝ) + 1) ^ 4 := by
    intro m
    have h := Real.integral_rpow_mul_exp_neg_mul_Ioi (a := 4) (r := (m : ℝ) + 1) (by norm_num) (by positivity)
    have h2 : ∫ x in Ioi (0 : ℝ), x ^ (3 : ℕ) * Real.exp (-(((m : ℝ) + 1) * x))
        = ∫ x in Ioi (0 : ℝ), x ^ ((4 : ℝ) - 1) * Real.exp (-(((m : ℝ) + 1) * x)) := by
      apply setIntegral_congr_fun measurableSet_Ioi
      intro x hx
      simp only
      rw [show (4 : ℝ) - 1 = ((3 : ℕ) : ℝ) by norm_num, Real.rpow_natCast]
    rw [h2, h]
    have hg : Real.Gamma 4 = 6 := by
      rw [show (4 : ℝ) = ((3 : ℕ) : ℝ) + 1 by norm_num, Real.Gamma_nat_eq_factorial]
      norm_num [Nat.factorial]
    rw [hg, show (4 : ℝ) = ((4 : ℕ) : ℝ) by norm_num, Real.rpow_natCast]
    field_simp
  have hint : ∀ m : ℕ, Integrable (fun x : ℝ => x ^ (3 : ℕ) * Real.exp (-(((m : ℝ) + 1) * x)))
      (volume.restrict (Ioi 0)) := by
    intro m
    by_contra hc
    have := integral_undef hc
    rw [hI m] at this
    have : 0 < 6 / ((m : ℝ) + 1) ^ 4 := by positivity
    linarith
  have hz : HasSum (fun m : ℕ => 6 / ((m : ℝ) + 1) ^ 4) (Real.pi ^ 4 / 15) := by
    have h := hasSum_zeta_four
    have h' : HasSum (fun n : ℕ => (1 : ℝ) / ((n + 1 : ℕ) : ℝ) ^ 4) (Real.pi ^ 4 / 90) := by
      rw [hasSum_nat_add_iff (f := fun n : ℕ => (1 : ℝ) / (n : ℝ) ^ 4) 1]
      simpa using h
    have h6 := h'.mul_left 6
    have e1 : (fun m : ℕ => 6 / ((m : ℝ) + 1) ^ 4) = fun i : ℕ => 6 * (1 / ((i + 1 : ℕ) : ℝ) ^ 4) := by
      funext m; push_cast; ring
    rw [e1, show Real.pi ^ 4 / 15 = 6 * (Real.pi ^ 4 / 90) by ring]
    exact h6
  have hsum := hasSum_integral_of_summable_integral_norm hint (by
    have : ∀ m : ℕ, ∫ x in Ioi (0 : ℝ), ‖x ^ (3 : ℕ) * Real.exp (-(((m : ℝ) + 1) * x))‖ = 6 / ((m : ℝ) + 1) ^ 4 := by
      intro m
      rw [← hI m]
      apply setIntegral_congr_fun measurableSet_Ioi
      intro x hx
      have : (0 : ℝ) < x := hx
      simp only
      rw [Real.norm_of_nonneg (by positivity)]
    simp only [this]
    exact hz.summable)
  simp only [hI] at hsum
  rw [← hsum.unique hz]
  apply setIntegral_congr_fun measurableSet_Ioi
  intro x hx
  have hx0 : (0 : ℝ) < x := hx
  simp only
  have hq : Real.exp (-x) < 1 := by rw [Real.exp_lt_one_iff]; linarith
  have hgeo := (hasSum_geometric_of_lt_one (Real.exp_pos (-x)).le hq).mul_left (x ^ 3 * Real.exp (-x))
  have e : (fun m : ℕ => x ^ (3 : ℕ) * Real.exp (-(((m : ℝ) + 1) * x)))
      = fun m : ℕ => x ^ 3 * Real.exp (-x) * Real.exp (-x) ^ m := by
    funext m
    rw [← Real.exp_nat_mul, mul_assoc, ← Real.exp_add]
    congr 2; ring
  rw [e, hgeo.tsum_eq]
  unfold shape
  have hE := expm1_pos hx0
  rw [Real.exp_neg]
  have := Real.exp_pos x
  field_simp

open MeasureTheory in
/-- C74: the total radiance over all frequencies is `2 π⁴ k⁴ T⁴ / (15 h³ c²)` (the Stefan–Boltzmann law `σT⁴/π`). -/
theorem C74_stefan_boltzmann {T : ℝ} (hT : 0 < T) :
    ∫ nu in Ioi (0 : ℝ), blackbody_freq_density_si nu T
      = 2 * Real.pi ^ 4 * (1.380649e-23 * T) ^ 4 / (15 * 6.62607015e-34 ^ 3 * 299792458 ^ 2) := by
  have hh := h_pos
  have hk := k_pos
  have hc := c_pos
  have e : ∫ nu in Ioi (0 : ℝ), blackbody_freq_density_si nu T
      = ∫ nu in Ioi (0 : ℝ), 2 * (K_BOLTZ * T) ^ 3 / (H_PLANCK ^ 2 * C_SPEED ^ 2) *
          shape 3 (H_PLANCK / (K_BOLTZ * T) * nu) := by
    apply setIntegral_congr_fun measurableSet_Ioi
    intro nu hnu
    simp only
    rw [freq_shape hnu hT, mul_div_right_comm H_PLANCK]
  rw [e, integral_const_mul, integral_comp_mul_left_Ioi (fun x => shape 3 x) 0 (by positivity), mul_zero,
    integral_shape3, smul_eq_mul]
  have hc' : C_SPEED = 299792458 := by unfold C_SPEED; norm_num
  rw [show (6.62607015e-34 : ℝ) = H_PLANCK from rfl, show (1.380649e-23 : ℝ) = K_BOLTZ from rfl, ← hc']
  field_simp

/-- case: 5800 K -/
example := C74_stefan_boltzmann (T := 5800) (by norm_num)

open MeasureTheory in
/-- C74: the wavelength density has the same total. -/
theorem C74_wavelength_total {T : ℝ} :
    ∫ lam in Ioi (0 : ℝ), blackbody_wave_density_si lam T = ∫ nu in Ioi (0 : ℝ), blackbody_freq_density_si nu T := by
  have hc := c_pos
  have hc' : C_SPEED = 299792458 := by unfold C_SPEED; norm_num
  have h1 := integral_comp_rpow_Ioi (fun u => C_SPEED * blackbody_freq_density_si (C_SPEED * u) T) (p := -1) (by norm_num)
  have h2 : ∫ u in Ioi (0 : ℝ), C_SPEED * blackbody_freq_density_si (C_SPEED * u) T
      = ∫ nu in Ioi (0 : ℝ), blackbody_freq_density_si nu T := by
    rw [integral_const_mul, integral_comp_mul_left_Ioi (fun x => blackbody_freq_density_si x T) 0 hc, mul_zero,
      smul_eq_mul, ← mul_assoc, mul_inv_cancel₀ hc.ne', one_mul]
  rw [← h2, ← h1]
  apply setIntegral_congr_fun measurableSet_Ioi
  intro lam hl
  have hl0 : (0 : ℝ) < lam := hl
  have hnu : 0 < C_SPEED * lam⁻¹ := by positivity
  have := (C60_consistent hnu (lam := lam) (by rw [← hc']; field_simp) T).1
  simp only
  rw [Real.rpow_neg_one, smul_eq_mul, show (-1 : ℝ) - 1 = ((-2 : ℤ) : ℝ) by norm_num, Real.rpow_intCast]
  have h3 : blackbody_wave_density_si lam T = lam⁻¹ * (C_SPEED * lam⁻¹ * blackbody_freq_density_si (C_SPEED * lam⁻¹) T) := by
    rw [this]; field_simp
  rw [h3]
  simp
  rw [sq, mul_inv]
  ring

end Dsps.Props
