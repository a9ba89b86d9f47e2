import Verif.Lemmas.AgeClosed
import Verif.Props.Cosmology
import Verif.Cases

/-! C95: the age of the universe has its textbook closed form, and the shipped cosmologies have the right ages. -/
namespace Dsps.Props
open Jnp Dsps.Utils Dsps.FlatWcdm Dsps.Lemmas Spec Set

/-- Textbook age today of flat LCDM in units of the Hubble time: `2/(3 √ΩΛ) · arsinh √(ΩΛ/Ωm)`. -/
noncomputable def lcdmAge (Om0 : ℝ) : ℝ :=
  2 / 3 / Real.sqrt (1 - Om0) * Real.arsinh (Real.sqrt ((1 - Om0) / Om0))

/-- Textbook time between redshift `z` and today in flat LCDM, in units of the Hubble time. -/
noncomputable def lcdmLookback (Om0 z : ℝ) : ℝ :=
  2 / 3 / Real.sqrt (1 - Om0) *
    (Real.arsinh (Real.sqrt ((1 - Om0) / Om0)) - Real.arsinh (Real.sqrt ((1 - Om0) / (Om0 * (1 + z) ^ 3))))

theorem Ls_eq {Om z : ℝ} (h0 : 0 < Om) (h1 : Om < 1) (hz : -1 < z) :
    Ls Om z = Real.sqrt ((1 - Om) / (Om * (1 + z) ^ 3)) := by
  rw [← Ls_sq h0 h1 hz, Real.sqrt_sq (Ls_pos h0 h1 hz).le]

theorem Th_eq (Om0 h : ℝ) : hubble_time 0 Om0 (-1) 0 h = Th h := by
  rw [← hubble_time_zero Om0 (-1) 0 h]; norm_num

/-- C95: for every flat LCDM the age today is the textbook closed form, at most 0.05 per cent above it, and below it by
no more than the time the universe took to reach redshift 999. -/
theorem C95_age_closed_form {Om0 h : ℝ} (h0 : 0 < Om0) (h1 : Om0 < 1) (hh : 0 < h) :
    hubble_time 0 Om0 (-1) 0 h * (lcdmAge Om0 - 2.2e-5 / Real.sqrt Om0) ≤ age_at_z0 Om0 (-1) 0 h ∧
    age_at_z0 Om0 (-1) 0 h ≤ 1.0005 * (hubble_time 0 Om0 (-1) 0 h * lcdmAge Om0) := by
  have hO : PhysicalOm Om0 := ⟨h0.le, h1.le⟩
  have hT := Th_pos hh
  rw [Th_eq, age0_eq]
  have e := lcdm_integral h0 h1 le_rfl (by norm_num : (0 : ℝ) ≤ 999)
  have hl := Atrap_ge hO
  have hu := Atrap_le hO
  have ht := tail_le h0 h1
  have hp : 0 ≤ 2 / 3 / Real.sqrt (1 - Om0) * Real.arsinh (Ls Om0 999) := mul_nonneg (by positivity)
    (Real.arsinh_nonneg_iff.2 (Ls_pos h0 h1 (by norm_num)).le)
  have e' : ∫ t in (0 : ℝ)..999, Lq Om0 t
      = lcdmAge Om0 - 2 / 3 / Real.sqrt (1 - Om0) * Real.arsinh (Ls Om0 999) := by
    rw [e, Ls_zero]; unfold lcdmAge; ring
  rw [e'] at hl hu
  constructor
  · apply mul_le_mul_of_nonneg_left _ hT.le
    linarith
  · have : Atrap Om0 (-1) 0 ≤ 1.0005 * lcdmAge Om0 := by norm_num at hu ⊢; linarith
    have := mul_le_mul_of_nonneg_left this hT.le
    linarith

/-- case: matter density 0.3 and h = 0.7 -/
example := C95_age_closed_form (Om0 := 0.3) (h := 0.7) (by norm_num) (by norm_num) (by norm_num)

/-- numerical evaluation of the closed form from rational bounds -/
theorem age_window {Om h k1 k2 a1 a2 s1 s2 T1 T2 lo hi : ℝ} (h0 : 0.25 ≤ Om) (h1 : Om < 1) (hh : 0 < h)
    (hT1 : T1 * h ≤ 1e-16 * MPC / YEAR) (hT2 : 1e-16 * MPC / YEAR ≤ T2 * h) (hT0 : 0 ≤ T1)
    (hk1 : k1 ^ 2 * Om ≤ 1 - Om) (hk2 : 1 - Om ≤ k2 ^ 2 * Om) (hk0 : 0 ≤ k2)
    (ha1 : a1 ≤ Real.arsinh k1) (ha2 : Real.arsinh k2 ≤ a2) (ha0 : 0 ≤ a1)
    (hs1 : s1 ^ 2 ≤ 1 - Om) (hs2 : 1 - Om ≤ s2 ^ 2) (hs0 : 0 < s1) (hs3 : 0 < s2)
    (hlo : lo < T1 * (2 / 3 / s2 * a1 - 4.4e-5)) (hpos : 0 ≤ 2 / 3 / s2 * a1 - 4.4e-5)
    (hhi : 1.0005 * (T2 * (2 / 3 / s1 * a2)) < hi) :
    lo < age_at_z0 Om (-1) 0 h ∧ age_at_z0 Om (-1) 0 h < hi := by
  have hO : (0 : ℝ) < Om := by norm_num at h0; linarith
  obtain ⟨hl, hu⟩ := C95_age_closed_form hO h1 hh
  rw [Th_eq] at hl hu
  have hTl : T1 ≤ Th h := by unfold Th; rw [le_div_iff₀ hh]; exact hT1
  have hTu : Th h ≤ T2 := by unfold Th; rw [div_le_iff₀ hh]; exact hT2
  have hK1 : k1 ≤ Real.sqrt ((1 - Om) / Om) := Real.le_sqrt_of_sq_le (by rwa [le_div_iff₀ hO])
  have hK2 : Real.sqrt ((1 - Om) / Om) ≤ k2 := Real.sqrt_le_iff.2 ⟨hk0, by rwa [div_le_iff₀ hO]⟩
  have hA1 := ha1.trans (Real.arsinh_le_arsinh.2 hK1)
  have hA2 := (Real.arsinh_le_arsinh.2 hK2).trans ha2
  have hS1 : s1 ≤ Real.sqrt (1 - Om) := Real.le_sqrt_of_sq_le hs1
  have hS2 : Real.sqrt (1 - Om) ≤ s2 := Real.sqrt_le_iff.2 ⟨hs3.le, hs2⟩
  have hS0 : 0 < Real.sqrt (1 - Om) := by linarith
  have ho : (0.5 : ℝ) ≤ Real.sqrt Om := Real.le_sqrt_of_sq_le (by norm_num at h0 ⊢; linarith)
  have hL1 : 2 / 3 / s2 * a1 ≤ lcdmAge Om := by unfold lcdmAge; gcongr
  have hL2 : lcdmAge Om ≤ 2 / 3 / s1 * a2 := by
    unfold lcdmAge
    exact mul_le_mul (by gcongr) hA2 (ha0.trans hA1) (by positivity)
  have ht : 2.2e-5 / Real.sqrt Om ≤ 4.4e-5 := by
    calc _ ≤ 2.2e-5 / (0.5 : ℝ) := by gcongr
      _ ≤ _ := by norm_num
  have hL0 : 0 ≤ lcdmAge Om := by
    refine le_trans ?_ hL1
    positivity
  constructor
  · refine lt_of_lt_of_le hlo (le_trans ?_ hl)
    exact mul_le_mul hTl (by linarith) hpos (hT0.trans hTl)
  · refine lt_of_le_of_lt hu (lt_of_le_of_lt ?_ hhi)
    exact mul_le_mul_of_nonneg_left (mul_le_mul hTu hL2 hL0 ((hT0.trans hTl).trans hTu)) (by norm_num)

/-- C95: the module constant `TODAY` (default cosmology, Planck 2015) is 13.82 Gyr. -/
theorem C95_today : 13.81 < TODAY ∧ TODAY < 13.83 := by
  have e1 : PLANCK15.w0 = -1 := by unfold PLANCK15; norm_num
  have e2 : PLANCK15.wa = 0 := by unfold PLANCK15; norm_num
  unfold TODAY DEFAULT_COSMOLOGY
  rw [e1, e2]
  have ha1 : (239 : ℕ) / (200 : ℕ) ≤ Real.arsinh 1.5006 := le_arsinh (y := 1.8032) (by norm_num) (by norm_num)
    (by norm_num) (by norm_num)
  have ha2 : Real.arsinh 1.50068 ≤ (251 : ℕ) / (210 : ℕ) := arsinh_le (y := 1.80335) (by norm_num) (by norm_num)
    (by norm_num) (by norm_num) (by norm_num)
  apply age_window (T1 := 14.4347) (T2 := 14.4349) (s1 := 0.83216) (s2 := 0.8322) (k1 := 1.5006) (k2 := 1.50068)
    (ha1 := ha1) (ha2 := ha2) <;> first | (unfold MPC YEAR PLANCK15; norm_num) | (unfold PLANCK15; norm_num) | norm_num

/-- C95: the WMAP5 cosmology is 13.73 Gyr old. -/
theorem C95_wmap5 : 13.72 < age_at_z0 WMAP5.Om0 WMAP5.w0 WMAP5.wa WMAP5.h ∧
    age_at_z0 WMAP5.Om0 WMAP5.w0 WMAP5.wa WMAP5.h < 13.74 := by
  have e1 : WMAP5.w0 = -1 := by unfold WMAP5; norm_num
  have e2 : WMAP5.wa = 0 := by unfold WMAP5; norm_num
  rw [e1, e2]
  have ha1 : (44 : ℕ) / (35 : ℕ) ≤ Real.arsinh 1.61557 := le_arsinh (y := 1.90001) (by norm_num) (by norm_num)
    (by norm_num) (by norm_num)
  have ha2 : Real.arsinh 1.61559 ≤ (127 : ℕ) / (101 : ℕ) := arsinh_le (y := 1.90004) (by norm_num) (by norm_num)
    (by norm_num) (by norm_num) (by norm_num)
  apply age_window (T1 := 13.9289) (T2 := 13.929) (s1 := 0.85029) (s2 := 0.8503) (k1 := 1.61557) (k2 := 1.61559)
    (ha1 := ha1) (ha2 := ha2) <;> first | (unfold MPC YEAR WMAP5; norm_num) | (unfold WMAP5; norm_num) | norm_num

/-- C95: the FSPS cosmology is 13.48 Gyr old. -/
theorem C95_fsps : 13.47 < age_at_z0 FSPS_COSMO.Om0 FSPS_COSMO.w0 FSPS_COSMO.wa FSPS_COSMO.h ∧
    age_at_z0 FSPS_COSMO.Om0 FSPS_COSMO.w0 FSPS_COSMO.wa FSPS_COSMO.h < 13.49 := by
  have e1 : FSPS_COSMO.w0 = -1 := by unfold FSPS_COSMO; norm_num
  have e2 : FSPS_COSMO.wa = 0 := by unfold FSPS_COSMO; norm_num
  rw [e1, e2]
  have ha1 : (89 : ℕ) / (70 : ℕ) ≤ Real.arsinh 1.64429 := le_arsinh (y := 1.92449) (by norm_num) (by norm_num)
    (by norm_num) (by norm_num)
  have ha2 : Real.arsinh 1.6443 ≤ (243 : ℕ) / (191 : ℕ) := arsinh_le (y := 1.92451) (by norm_num) (by norm_num)
    (by norm_num) (by norm_num) (by norm_num)
  apply age_window (T1 := 13.5807) (T2 := 13.58074) (s1 := 0.8544) (s2 := 0.85441) (k1 := 1.64429) (k2 := 1.6443)
    (ha1 := ha1) (ha2 := ha2) <;> first | (unfold MPC YEAR FSPS_COSMO; norm_num) | (unfold FSPS_COSMO; norm_num) | norm_num

/-- the exact time integral in closed form -/
theorem lookback_integral_closed {z Om0 : ℝ} (hz : 0 ≤ z) (h0 : 0 < Om0) (h1 : Om0 < 1) :
    ∫ t in (0 : ℝ)..z, 1 / Real.sqrt (friedmann Om0 (-1) 0 t) / (1 + t) = lcdmLookback Om0 z := by
  have e1 : ∫ t in (0 : ℝ)..z, 1 / Real.sqrt (friedmann Om0 (-1) 0 t) / (1 + t) = ∫ t in (0 : ℝ)..z, Lq Om0 t := by
    apply intervalIntegral.integral_congr
    intro x hx
    rw [uIcc_of_le hz] at hx
    simp only [friedmann_lcdm Om0 (by linarith [hx.1] : -1 < x)]
    rfl
  rw [e1, lcdm_integral h0 h1 le_rfl hz, Ls_zero, Ls_eq h0 h1 (by linarith)]
  rfl

/-- C95: the lookback time to every redshift is the textbook closed form: never below it, and above it by at most
`t_H (5/8) (z/511)²`. -/
theorem C95_lookback_closed_form {z Om0 h : ℝ} (hz : 0 ≤ z) (h0 : 0 < Om0) (h1 : Om0 < 1) (hh : 0 < h) :
    hubble_time 0 Om0 (-1) 0 h * lcdmLookback Om0 z ≤ lookback_to_z z Om0 (-1) 0 h ∧
    lookback_to_z z Om0 (-1) 0 h ≤
      hubble_time 0 Om0 (-1) 0 h * (lcdmLookback Om0 z + 5 / 8 * (z / 511) ^ 2) := by
  rw [← lookback_integral_closed hz h0 h1]
  exact C73_lookback_accuracy hz ⟨h0.le, h1.le⟩ hh

/-- case: redshift 2, matter density 0.3 and h = 0.7 -/
example := C95_lookback_closed_form (z := 2) (Om0 := 0.3) (h := 0.7) (by norm_num) (by norm_num) (by norm_num) (by norm_num)

example : (0 : ℝ) ≤ 1 ∧ (0 : ℝ) < PLANCK15.Om0 ∧ PLANCK15.Om0 < 1 ∧ 0 < PLANCK15.h := by
  unfold PLANCK15; norm_num

end Dsps.Props
