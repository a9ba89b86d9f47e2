import Verif.Props.Photometry
import Verif.Props.Cosmology
import Verif.Model.Constants
import Mathlib.Analysis.Real.Pi.Bounds

/-! C139: the numbers returned by dsps are in the physical units its documentation claims. -/
namespace Dsps.Props
open Jnp Dsps.Utils Spec Dsps.Photometry Dsps.FlatWcdm Dsps.Lemmas

variable {n m : ℕ}

/-! **Specification.** units, from their definitions -/
namespace Units
/-- parsec in cm: `648000/π` astronomical units of 149597870700 m (IAU 2012/2015) -/
noncomputable def parsec : ℝ := 648000 / Real.pi * 14959787070000
/-- nominal solar luminosity in erg/s (IAU 2015) -/
noncomputable def lsun : ℝ := 3.828e33
/-- jansky in erg/s/cm²/Hz -/
noncomputable def jansky : ℝ := 1e-23
/-- nominal solar mass parameter `G M` in cm³/s² (IAU 2015) -/
noncomputable def GMsun : ℝ := 1.3271244e26
/-- tropical year in s -/
noncomputable def year : ℝ := 31556925.2
/-- the Hubble constant `100 h km/s/Mpc` in 1/s -/
noncomputable def hubble (h : ℝ) : ℝ := 100 * h * 1e5 / (1e6 * parsec)
end Units

/-- **Specification.** flux density (erg/s/cm²/Hz) received from a source with luminosity density `L` (Lsun/Hz, at the emitted frequency) at luminosity
distance `d` (Mpc) and redshift `z` -/
noncomputable def fluxDensity (d z L : ℝ) : ℝ := (1 + z) * L * Units.lsun / (4 * Real.pi * (d * 1e6 * Units.parsec) ^ 2)

/-- **Specification.** AB magnitude of the flux densities `f` at the wavelengths of a filter: the photon-weighted mean relative to 3631 Jy, integrals by
the trapezium rule -/
noncomputable def abMag (fw ft f : Fin (m + 1) → ℝ) : ℝ :=
  -2.5 * Real.logb 10 (trapz fw (fun i => ft i * f i / fw i) / trapz fw (fun i => ft i * (3631 * Units.jansky) / fw i))

lemma pi_bounds : 3.14159265358979323846 < Real.pi ∧ Real.pi < 3.14159265358979323847 := ⟨Real.pi_gt_d20, Real.pi_lt_d20⟩

lemma parsec_bounds : 3.08567758149136e18 ≤ Units.parsec ∧ Units.parsec ≤ 3.08567758149137e18 := by
  obtain ⟨h1, h2⟩ := pi_bounds
  have hp := Real.pi_pos
  unfold Units.parsec
  rw [div_mul_eq_mul_div]
  constructor
  · rw [le_div_iff₀ hp]; norm_num at h2 ⊢; linarith
  · rw [div_le_iff₀ hp]; norm_num at h1 ⊢; linarith

/-- 3631 Jy at ten parsec, in units of the constant `AB0` of the package -/
lemma ab0_ratio : 1 ≤ 3631 * Units.jansky * (4 * Real.pi * (10 * Units.parsec) ^ 2) / (1.13492e-13 * Units.lsun) ∧
    3631 * Units.jansky * (4 * Real.pi * (10 * Units.parsec) ^ 2) / (1.13492e-13 * Units.lsun) ≤ 1 + 5.8e-8 := by
  obtain ⟨h1, h2⟩ := pi_bounds
  obtain ⟨p1, p2⟩ := parsec_bounds
  have q1 : (3.08567758149136e18:ℝ) ^ 2 ≤ Units.parsec ^ 2 := pow_le_pow_left₀ (by norm_num) p1 2
  have q2 : Units.parsec ^ 2 ≤ (3.08567758149137e18:ℝ) ^ 2 := pow_le_pow_left₀ (le_trans (by norm_num) p1) p2 2
  have r1 : 3.14159265358979323846 * (3.08567758149136e18:ℝ) ^ 2 ≤ Real.pi * Units.parsec ^ 2 := mul_le_mul h1.le q1 (by norm_num) Real.pi_pos.le
  have r2 : Real.pi * Units.parsec ^ 2 ≤ 3.14159265358979323847 * (3.08567758149137e18:ℝ) ^ 2 := mul_le_mul h2.le q2 (by positivity) (by norm_num)
  have e : 3631 * Units.jansky * (4 * Real.pi * (10 * Units.parsec) ^ 2) = 3631 * 1e-23 * 400 * (Real.pi * Units.parsec ^ 2) := by
    unfold Units.jansky; ring
  rw [e]
  unfold Units.lsun
  constructor
  · rw [le_div_iff₀ (by norm_num)]; norm_num at r1 ⊢; linarith
  · rw [div_le_iff₀ (by norm_num)]; norm_num at r2 ⊢; linarith

lemma log10_unit_ratio {x : ℝ} (h1 : 1 ≤ x) (h2 : x ≤ 1 + 5.8e-8) : |2.5 * Real.logb 10 x| ≤ 7.3e-8 := by
  have l0 : 0 ≤ Real.log x := Real.log_nonneg h1
  have l1 : Real.log x ≤ 5.8e-8 := (Real.log_le_sub_one_of_pos (by linarith)).trans (by linarith)
  have l10 : 2 ≤ Real.log 10 := by
    rw [Real.le_log_iff_exp_le (by norm_num)]
    have := Real.exp_one_lt_d9
    rw [show (2:ℝ) = (2:ℕ) * 1 by norm_num, Real.exp_nat_mul]
    exact (pow_le_pow_left₀ (Real.exp_pos 1).le this.le 2).trans (by norm_num)
  unfold Real.logb
  rw [abs_of_nonneg (by positivity)]
  have : Real.log x / Real.log 10 ≤ 5.8e-8 / 2 := div_le_div₀ (by norm_num) l1 (by norm_num) l10
  norm_num at this ⊢; linarith

/-- C139: **observed magnitudes are AB magnitudes**: for every spectrum (Lsun/Hz), filter, redshift and cosmology, `calc_obs_mag` is within `7.3e-8` mag of the
AB magnitude of the flux density received at the package's luminosity distance, the luminosity density interpolated to the emitted wavelength. -/
theorem C139_obs_mag [Dtype] {wave lum : Fin (n + 2) → ℝ} {fw ft : Fin (m + 1) → ℝ} {z Om0 w0 wa h : ℝ} (hz : -1 < z)
    (hd : luminosity_distance_to_z z Om0 w0 wa h ≠ 0) (hab : flux_ab0_at_10pc fw ft ≠ 0) (hf : obs_flux_ssp wave lum fw ft z ≠ 0) :
    |calc_obs_mag wave lum fw ft z Om0 w0 wa h -
      abMag fw ft (fun i => fluxDensity (luminosity_distance_to_z z Om0 w0 wa h) z (interpLR (fw i) (fun j => wave j * (1 + z)) lum 0 0))| ≤ 7.3e-8 := by
  set d := luminosity_distance_to_z z Om0 w0 wa h with hdd
  have hpi := Real.pi_pos
  have hpc : 0 < Units.parsec := lt_of_lt_of_le (by norm_num) parsec_bounds.1
  have hz1 : 0 < 1 + z := by linarith
  set F := obs_flux_ssp wave lum fw ft z with hF
  set K := (1 + z) * Units.lsun / (4 * Real.pi * (d * 1e6 * Units.parsec) ^ 2) with hK
  have eN : trapz fw (fun i => ft i * fluxDensity d z (interpLR (fw i) (fun j => wave j * (1 + z)) lum 0 0) / fw i) = K * F := by
    rw [hF]; unfold obs_flux_ssp
    rw [← trapz_smul]; congr 1; funext i
    unfold fluxDensity; rw [hK]; ring
  have eD : trapz fw (fun i => ft i * (3631 * Units.jansky) / fw i) = 3631 * Units.jansky / 1.13492e-13 * flux_ab0_at_10pc fw ft := by
    unfold flux_ab0_at_10pc AB0
    rw [← trapz_smul]; congr 1; funext i
    field_simp
  set G := flux_ab0_at_10pc fw ft with hG
  have hl : (0:ℝ) < Units.lsun := by unfold Units.lsun; norm_num
  have hj : (0:ℝ) < Units.jansky := by unfold Units.jansky; norm_num
  have hK0 : 0 < K := by rw [hK]; positivity
  set X := 3631 * Units.jansky * (4 * Real.pi * (10 * Units.parsec) ^ 2) / (1.13492e-13 * Units.lsun) with hX
  have hX0 : 0 < X := lt_of_lt_of_le one_pos ab0_ratio.1
  have key : F / G / (d * 1e5) ^ 2 * (1 + z) = K * F / (3631 * Units.jansky / 1.13492e-13 * G) * X := by
    rw [hK, hX]
    field_simp
    norm_num
  have lhs : calc_obs_mag wave lum fw ft z Om0 w0 wa h = -2.5 * Real.logb 10 (F / G / (d * 1e5) ^ 2 * (1 + z)) := by
    unfold calc_obs_mag cosmological_dimming distance_modulus_to_z log10
    simp only
    rw [← hF, ← hG, ← hdd, Real.logb_mul (by positivity) hz1.ne', Real.logb_div (div_ne_zero hf hab) (by positivity), Real.logb_pow]
    rw [show (5.0:ℝ) = 5 by norm_num]
    push_cast; norm_num; ring
  have rhs : abMag fw ft (fun i => fluxDensity d z (interpLR (fw i) (fun j => wave j * (1 + z)) lum 0 0))
      = -2.5 * Real.logb 10 (K * F / (3631 * Units.jansky / 1.13492e-13 * G)) := by
    unfold abMag; rw [eN, eD]
  rw [lhs, rhs, key, Real.logb_mul (by positivity) hX0.ne']
  have := log10_unit_ratio ab0_ratio.1 ab0_ratio.2
  rw [← hX] at this
  rw [show ∀ a b : ℝ, -2.5 * (a + b) - -2.5 * a = -(2.5 * b) by intros; ring, abs_neg]
  exact this

/-- C139: **absolute magnitudes are AB magnitudes at ten parsec**, within `7.3e-8` mag; and `calc_rest_flux` is the flux relative to 3631 Jy. -/
theorem C139_rest_mag [Dtype] {wave lum : Fin (n + 2) → ℝ} {fw ft : Fin (m + 1) → ℝ} (hab : flux_ab0_at_10pc fw ft ≠ 0)
    (hf : rest_flux_ssp wave lum fw ft ≠ 0) :
    |calc_rest_mag wave lum fw ft - abMag fw ft (fun i => fluxDensity 1e-5 0 (interpLR (fw i) wave lum 0 0))| ≤ 7.3e-8 := by
  have hpi := Real.pi_pos
  have hpc : 0 < Units.parsec := lt_of_lt_of_le (by norm_num) parsec_bounds.1
  set F := rest_flux_ssp wave lum fw ft with hF
  set K := Units.lsun / (4 * Real.pi * (10 * Units.parsec) ^ 2) with hK
  have eN : trapz fw (fun i => ft i * fluxDensity 1e-5 0 (interpLR (fw i) wave lum 0 0) / fw i) = K * F := by
    rw [hF]; unfold rest_flux_ssp
    rw [← trapz_smul]; congr 1; funext i
    unfold fluxDensity
    rw [hK, show (1e-5:ℝ) * 1e6 = 10 by norm_num]; ring
  have eD : trapz fw (fun i => ft i * (3631 * Units.jansky) / fw i) = 3631 * Units.jansky / 1.13492e-13 * flux_ab0_at_10pc fw ft := by
    unfold flux_ab0_at_10pc AB0
    rw [← trapz_smul]; congr 1; funext i
    field_simp
  set G := flux_ab0_at_10pc fw ft with hG
  have hl : (0:ℝ) < Units.lsun := by unfold Units.lsun; norm_num
  have hj : (0:ℝ) < Units.jansky := by unfold Units.jansky; norm_num
  set X := 3631 * Units.jansky * (4 * Real.pi * (10 * Units.parsec) ^ 2) / (1.13492e-13 * Units.lsun) with hX
  have hX0 : 0 < X := lt_of_lt_of_le one_pos ab0_ratio.1
  have key : F / G = K * F / (3631 * Units.jansky / 1.13492e-13 * G) * X := by
    rw [hK, hX]
    field_simp
  have lhs : calc_rest_mag wave lum fw ft = -2.5 * Real.logb 10 (F / G) := rfl
  have rhs : abMag fw ft (fun i => fluxDensity 1e-5 0 (interpLR (fw i) wave lum 0 0))
      = -2.5 * Real.logb 10 (K * F / (3631 * Units.jansky / 1.13492e-13 * G)) := by
    unfold abMag; rw [eN, eD]
  have hK0 : 0 < K := by rw [hK]; positivity
  rw [lhs, rhs, key, Real.logb_mul (by positivity) hX0.ne']
  have := log10_unit_ratio ab0_ratio.1 ab0_ratio.2
  rw [← hX] at this
  rw [show ∀ a b : ℝ, -2.5 * (a + b) - -2.5 * a = -(2.5 * b) by intros; ring, abs_neg]
  exact this

/-- C139: **the Hubble time is in Gyr**: at redshift 0 it is `1/H0` to 12 digits. -/
theorem C139_hubble_time (Om0 w0 wa : ℝ) {h : ℝ} (hh : 0 < h) :
    |hubble_time 0 Om0 w0 wa h - 1 / Units.hubble h / (1e9 * Units.year)| ≤ 5e-12 / h := by
  obtain ⟨p1, p2⟩ := parsec_bounds
  have hpc : 0 < Units.parsec := lt_of_lt_of_le (by norm_num) p1
  have e0 : Ez 0 Om0 w0 wa = 1 := Ez_zero Om0 w0 wa
  have e : hubble_time 0 Om0 w0 wa h - 1 / Units.hubble h / (1e9 * Units.year) = (1e-16 * 3.08567758149e24 / 31556925.2 - Units.parsec * 1e-10 / 31556925.2) / h := by
    unfold hubble_time Units.hubble Units.year MPC YEAR
    simp only [e0]
    field_simp
    norm_num
    try ring
  rw [e, abs_div, abs_of_pos hh]
  refine div_le_div_of_nonneg_right ?_ hh.le
  rw [abs_le]
  constructor <;> norm_num at p1 p2 ⊢ <;> linarith

/-- C139: **the critical density is in solar masses per cubic kpc**: at redshift 0 it is `3 H0² / (8 π G)`. -/
theorem C139_critical_density (Om0 w0 wa : ℝ) {h : ℝ} (hh : 0 < h) :
    |rho_crit 0 Om0 w0 wa h - 3 * Units.hubble h ^ 2 / (8 * Real.pi * Units.GMsun) * (1e3 * Units.parsec) ^ 3| ≤ 3e-7 * h ^ 2 := by
  obtain ⟨p1, p2⟩ := parsec_bounds
  obtain ⟨h1, h2⟩ := pi_bounds
  have hpi := Real.pi_pos
  have hpc : 0 < Units.parsec := lt_of_lt_of_le (by norm_num) p1
  have e0 : Ez 0 Om0 w0 wa = 1 := Ez_zero Om0 w0 wa
  have e : rho_crit 0 Om0 w0 wa h - 3 * Units.hubble h ^ 2 / (8 * Real.pi * Units.GMsun) * (1e3 * Units.parsec) ^ 3
      = (277.536627 - 3 / (8 * 1.3271244e26) * 1e11 * (Units.parsec / Real.pi)) * h ^ 2 := by
    unfold rho_crit Units.hubble Units.GMsun RHO_CRIT0_KPC3_UNITY_H
    simp only [e0]
    field_simp
    norm_num
    try ring
  rw [e, abs_mul, abs_of_pos (show 0 < h ^ 2 by positivity)]
  refine mul_le_mul_of_nonneg_right ?_ (by positivity)
  have q1 : 982201.679764e12 ≤ Units.parsec / Real.pi := by rw [le_div_iff₀ hpi]; norm_num at p1 h2 ⊢; nlinarith
  have q2 : Units.parsec / Real.pi ≤ 982201.679765e12 := by rw [div_le_iff₀ hpi]; norm_num at p2 h1 ⊢; nlinarith
  rw [abs_le]
  constructor <;> norm_num at q1 q2 ⊢ <;> linarith

section
attribute [local instance] Dtype.float64

/-- case: a galaxy at redshift 1/2 in a flat ΛCDM cosmology -/
example := C139_obs_mag (n := 1) (m := 2) (wave := caseWave) (lum := caseLum) (fw := caseFW) (ft := caseFT) (z := 1 / 2) (Om0 := 0.3) (w0 := -1) (wa := 0)
  (h := 0.7) (by norm_num) (C49_positive (by norm_num) ⟨by norm_num, by norm_num⟩ (by norm_num) _ _).2.1.ne' case_ab.ne'
  (by have h := case_obs_flux; intro e; rw [e, zero_div] at h; exact lt_irrefl _ h)

/-- case: the same galaxy at ten parsec -/
example := C139_rest_mag (n := 1) (m := 2) (wave := caseWave) (lum := caseLum) (fw := caseFW) (ft := caseFT) case_ab.ne'
  (by have h := case_flux; intro e; unfold calc_rest_flux at h; rw [e] at h; simp at h)

/-- cases: Planck 2015 -/
example := C139_hubble_time 0.3075 (-1) 0 (h := 0.6774) (by norm_num)
example := C139_critical_density 0.3075 (-1) 0 (h := 0.6774) (by norm_num)
end

end Dsps.Props
