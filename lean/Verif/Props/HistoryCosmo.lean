import Verif.Props.HistoryMet
import Verif.Props.HistoryBurst
import Verif.Props.CosmoAge
import Verif.Props.CosmoSens

/-! C168, continued: galaxies observed at the age of the universe at their redshift (`/repo/dsps/cosmology/flat_wcdm.py`). -/
namespace Dsps.Props
open Dsps.Utils Dsps.Lemmas Dsps.Photometry Dsps.Constants Dsps.StellarAgeWeights Dsps.SspWeights Dsps.FlatWcdm Jnp Spec Set
open Dsps.MetallicityWeights (calc_lgmet_weights_from_lognormal_mdf)
open scoped BigOperators

variable {n m k w q : ℕ} {z Om0 Om1 w0 w0' wa wa' h h' : ℝ}

/-- **Specification.** age of the universe at one redshift, by the public function -/
noncomputable def ageAt (z Om0 w0 wa h : ℝ) : ℝ := age_at_z (fun _ : Fin 1 => z) Om0 w0 wa h 0

/-- C168: the age of the universe at any redshift is inversely proportional to `h`, and the distance modulus falls by `5 log10` of the ratio of the `h`. -/
theorem C168_hubble_scaling (z Om0 w0 wa : ℝ) (hh : 0 < h) (hh' : 0 < h') :
    ageAt z Om0 w0 wa h' = ageAt z Om0 w0 wa h * (h / h') ∧
    (0 < z → PhysicalOm Om0 → distance_modulus_to_z z Om0 w0 wa h' = distance_modulus_to_z z Om0 w0 wa h - 5 * Real.logb 10 (h' / h)) := by
  obtain ⟨-, a2, -, a4, a5⟩ := C49_scale_with_h z Om0 w0 wa hh.ne'
  obtain ⟨-, b2, -, b4, b5⟩ := C49_scale_with_h z Om0 w0 wa hh'.ne'
  constructor
  · simp only [ageAt, age_at_z, age_at_z_kern, Jnp.vmap]
    rw [a4, a5, b4, b5]
    field_simp
  · intro hz hO
    have p := (C49_positive hz hO one_pos w0 wa).2.1
    unfold distance_modulus_to_z
    simp only [a2, b2, Jnp.log10]
    have e : luminosity_distance_to_z z Om0 w0 wa 1 / h' * 1e5 = luminosity_distance_to_z z Om0 w0 wa 1 / h * 1e5 / (h' / h) := by field_simp
    rw [e, Real.logb_div (by positivity) (by positivity)]
    norm_num
    ring

/-- **Specification.** textbook age of a flat LCDM universe at redshift `z`, in units of the Hubble time: `2/(3 √ΩΛ) · arsinh √(ΩΛ/(Ωm (1+z)³))` -/
noncomputable def lcdmAgeAt (Om0 z : ℝ) : ℝ := 2 / 3 / Real.sqrt (1 - Om0) * Real.arsinh (Real.sqrt ((1 - Om0) / (Om0 * (1 + z) ^ 3)))

/-- C95: at every redshift the age of a flat LCDM universe is the textbook closed form: above it by at most 0.05 per cent of the age today, below it by at most the time
the universe took to reach redshift 999 and `5/8 (z/511)²` of the Hubble time. -/
theorem C95_age_at_redshift (hz : 0 ≤ z) (h0 : 0 < Om0) (h1 : Om0 < 1) (hh : 0 < h) :
    hubble_time 0 Om0 (-1) 0 h * (lcdmAgeAt Om0 z - 2.2e-5 / Real.sqrt Om0 - 5 / 8 * (z / 511) ^ 2) ≤ ageAt z Om0 (-1) 0 h ∧
    ageAt z Om0 (-1) 0 h ≤ hubble_time 0 Om0 (-1) 0 h * (lcdmAgeAt Om0 z + 0.0005 * lcdmAge Om0) := by
  have A := C95_age_closed_form h0 h1 hh
  have L := C95_lookback_closed_form hz h0 h1 hh
  have e : lcdmAgeAt Om0 z = lcdmAge Om0 - lcdmLookback Om0 z := by unfold lcdmAgeAt lcdmAge lcdmLookback; ring
  simp only [ageAt, age_at_z, age_at_z_kern, Jnp.vmap]
  rw [e]
  constructor <;> linarith [A.1, A.2, L.1, L.2]

section
variable [Dtype] {t s zt : Fin (n + 2) → ℝ} {a : Fin (m + 3) → ℝ} {y : Fin (k + 3) → ℝ} {gal_lgmet scatter B F R L d : ℝ}
  {wave : Fin (w + 2) → ℝ} {flux : Fin (k + 3) → Fin (m + 3) → Fin (w + 2) → ℝ} {fw ft : Fin (q + 1) → ℝ}

/-- C168: **the Hubble constant.** The apparent magnitude of a galaxy observed at redshift `z`, its stars as old as the universe then allows, changes with `h` by `-5 log10 (h'/h)`
(distance) up to an explicit multiple of the change of the universe's age. -/
theorem C168_hubble (ht : StrictMono t) (ht0 : 0.001 < t 0) (hr : Resolved fun i => log10 (t i)) (hB : ∀ i, max 1e-14 (s i) ≤ B)
    (hF : ∀ k : Fin (n + 1), t k.succ ≤ F * t k.castSucc ∧ 1 + Real.log (tableMass t s 1e-14 k.succ / tableMass t s 1e-14 k.castSucc) ≤ F)
    (he : Monotone (get_lg_age_bin_edges a)) (hZ : IsProbVector (calc_lgmet_weights_from_lognormal_mdf gal_lgmet scatter y))
    (hx : ∀ i j l, 0 < flux i j l) (hR : ∀ i j i' j' l, flux i j l ≤ R * flux i' j' l) (hd : 0 < d) (hw : Monotone wave) (hf : GoodFilter fw ft)
    (hz : 0 < z) (hO : PhysicalOm Om0) (hh : 0 < h) (hh' : 0 < h') :
    let age := ageAt z Om0 w0 wa
    let sed := fun t_obs => (calc_rest_sed_sfh_table_lognormal_mdf t s gal_lgmet scatter y a flux t_obs).rest_sed
    0.001 ≤ age h → 0.001 ≤ age h' → d ≤ massInRange t s a (age h) → d ≤ massInRange t s a (age h') →
    0 < obs_flux_ssp wave (sed (age h)) fw ft z / flux_ab0_at_10pc fw ft →
    |calc_obs_mag wave (sed (age h')) fw ft z Om0 w0 wa h' - (calc_obs_mag wave (sed (age h)) fw ft z Om0 w0 wa h - 5 * Real.logb 10 (h' / h))| ≤
      1.09 * ((4 * m + 13) * R * (1e9 * B * F * (age h * |h / h' - 1|)) / d) := by
  intro age sed h0 h0' hD hD' hpos
  obtain ⟨e1, e2⟩ := C168_hubble_scaling z Om0 w0 wa hh hh'
  have e2 := e2 hz hO
  have main := C168_observation_time (Om0 := Om0) (w0 := w0) (wa := wa) (h := h) (gal_lgmet := gal_lgmet) (scatter := scatter) ht ht0 hr hB hF he hZ hx hR h0 h0' hd hD hD' hw hf (by linarith) hpos
  have e3 : |age h' - age h| = age h * |h / h' - 1| := by
    rw [show age h' - age h = age h * (h / h' - 1) by simp only [age]; rw [e1]; ring, abs_mul, abs_of_nonneg (by linarith)]
  rw [e3] at main
  have e4 : calc_obs_mag wave (sed (age h')) fw ft z Om0 w0 wa h' = calc_obs_mag wave (sed (age h')) fw ft z Om0 w0 wa h - 5 * Real.logb 10 (h' / h) := by
    unfold calc_obs_mag cosmological_dimming
    simp only [e2]
    ring
  rw [e4, sub_sub_sub_cancel_right]
  exact main

/-- C168: **cosmology.** The apparent magnitude of a galaxy with a metallicity history observed at redshift `z`, its stars as old as the universe then allows, differs between two cosmologies by
at most the bound of `C154_magnitudes` (distance) plus an explicit multiple of the difference of the ages. -/
theorem C168_cosmology (hB : ∀ i, max 1e-14 (s i) ≤ B)
    (hF : ∀ k : Fin (n + 1), t k.succ ≤ F * t k.castSucc ∧ 1 + Real.log (tableMass t s 1e-14 k.succ / tableMass t s 1e-14 k.castSucc) ≤ F)
    (hzt : ∀ i, |zt i| ≤ 7) (hσ1 : scatter ≤ 1) (hL0 : 0 ≤ L) (hL : ∀ i : Fin (n + 1), |zt i.succ - zt i.castSucc| ≤ L * (log10 (t i.succ) - log10 (t i.castSucc)))
    (hx : ∀ i j l, 0 < flux i j l) (hR : ∀ i j i' j' l, flux i j l ≤ R * flux i' j' l) (hd : 0 < d) (hw : Monotone wave) (hf : GoodFilter fw ft)
    (hz : 0 < z) (h0 : 0 < Om0) (h1 : Om0 ≤ 1) (h0' : 0 < Om1) (h1' : Om1 ≤ 1) (hs : NonStiff w0 wa) (hh : 0 < h) (hh' : 0 < h') :
    let age := ageAt z Om0 w0 wa h
    let age' := ageAt z Om1 w0' wa' h'
    let sed := fun t_obs => (calc_rest_sed_sfh_table_met_table t s zt scatter y a flux t_obs).rest_sed
    SedInputs t a y age scatter → SedInputs t a y age' scatter → d ≤ massInRange t s a age → d ≤ massInRange t s a age' →
    0 < obs_flux_ssp wave (sed age) fw ft z / flux_ab0_at_10pc fw ft →
    |calc_obs_mag wave (sed age') fw ft z Om1 w0' wa' h' - calc_obs_mag wave (sed age) fw ft z Om0 w0 wa h| ≤
      2.5 * |Real.logb 10 (Om1 / Om0)| + 2.5 / Real.log 10 * darkEnergyShift z (w0' - w0) (wa' - wa) + 5 * |Real.logb 10 (h' / h)| +
      (1.09 * ((4 * m + 13) * R * (1e9 * B * F * |age' - age|) / d) + 1.09 * ((R - 1) * (35 / 96 * (L * (|age' - age| / (t 0 * Real.log 10)) / scatter)))) := by
  intro age age' sed I I' hD hD' hpos
  have main := C168_observation_time_met (Om0 := Om0) (w0 := w0) (wa := wa) (h := h) I I' hB hF hzt hσ1 hL0 hL hx hR hd hD hD' hw hf (by linarith) hpos
  have cos := (C154_magnitudes (wave := wave) (f := sed age') (fw := fw) (ft := ft) (fw' := fw) (ft' := ft) (z := z) (Om0 := Om0) (Om1 := Om1) (w0 := w0) (w0' := w0') (wa := wa) (wa' := wa') (h := h) (h' := h')).2
    h0 h1 h0' h1' hs hh hh' hz
  have tri := abs_sub_le (calc_obs_mag wave (sed age') fw ft z Om1 w0' wa' h') (calc_obs_mag wave (sed age') fw ft z Om0 w0 wa h) (calc_obs_mag wave (sed age) fw ft z Om0 w0 wa h)
  linarith

/-- C168: **age of the universe.** The magnitude of a galaxy observed at the age which the table of 512 redshifts gives differs from that of the galaxy observed at the textbook age of the universe
by at most an explicit multiple of the Hubble time times the error of the table. -/
theorem C168_exact_age (ht : StrictMono t) (ht0 : 0.001 < t 0) (hr : Resolved fun i => log10 (t i)) (hB : ∀ i, max 1e-14 (s i) ≤ B)
    (hF : ∀ k : Fin (n + 1), t k.succ ≤ F * t k.castSucc ∧ 1 + Real.log (tableMass t s 1e-14 k.succ / tableMass t s 1e-14 k.castSucc) ≤ F)
    (he : Monotone (get_lg_age_bin_edges a)) (hZ : IsProbVector (calc_lgmet_weights_from_lognormal_mdf gal_lgmet scatter y))
    (hx : ∀ i j l, 0 < flux i j l) (hR : ∀ i j i' j' l, flux i j l ≤ R * flux i' j' l) (hd : 0 < d) (hw : Monotone wave) (hf : GoodFilter fw ft)
    (hz : 0 ≤ z) (h0 : 0 < Om0) (h1 : Om0 < 1) (hh : 0 < h) :
    let age := ageAt z Om0 (-1) 0 h
    let exact_age := hubble_time 0 Om0 (-1) 0 h * lcdmAgeAt Om0 z
    let error := hubble_time 0 Om0 (-1) 0 h * (0.0005 * lcdmAge Om0 + 2.2e-5 / Real.sqrt Om0 + 5 / 8 * (z / 511) ^ 2)
    let sed := fun t_obs => (calc_rest_sed_sfh_table_lognormal_mdf t s gal_lgmet scatter y a flux t_obs).rest_sed
    |age - exact_age| ≤ error ∧
    (0.001 ≤ age → 0.001 ≤ exact_age → d ≤ massInRange t s a age → d ≤ massInRange t s a exact_age →
      0 < obs_flux_ssp wave (sed exact_age) fw ft z / flux_ab0_at_10pc fw ft →
      |calc_obs_mag wave (sed age) fw ft z Om0 (-1) 0 h - calc_obs_mag wave (sed exact_age) fw ft z Om0 (-1) 0 h| ≤ 1.09 * ((4 * m + 13) * R * (1e9 * B * F * error) / d)) := by
  intro age exact_age error sed
  have A := C95_age_at_redshift hz h0 h1 hh
  have T0 : 0 < hubble_time 0 Om0 (-1) 0 h := by rw [Th_eq]; exact Th_pos hh
  have a0 : 0 ≤ hubble_time 0 Om0 (-1) 0 h * (0.0005 * lcdmAge Om0) :=
    mul_nonneg T0.le (mul_nonneg (by norm_num) (mul_nonneg (by positivity) (Real.arsinh_nonneg_iff.mpr (Real.sqrt_nonneg _))))
  have b0 : 0 ≤ hubble_time 0 Om0 (-1) 0 h * (2.2e-5 / Real.sqrt Om0 + 5 / 8 * (z / 511) ^ 2) := by positivity
  have key : |age - exact_age| ≤ error := by
    rw [abs_le]
    simp only [age, exact_age, error]
    constructor <;> linarith [A.1, A.2]
  refine ⟨key, fun h0 h0' hD hD' hpos => ?_⟩
  have main := C168_observation_time (Om0 := Om0) (w0 := -1) (wa := 0) (h := h) (gal_lgmet := gal_lgmet) (scatter := scatter) ht ht0 hr hB hF he hZ hx hR h0' h0 hd hD' hD hw hf (by linarith) hpos
  refine main.trans ?_
  have hR0 : 0 ≤ R := by
    have h1 := hR 0 0 0 0 0
    have h2 := hx 0 0 0
    by_contra hc
    nlinarith
  have hB0 : 0 ≤ B := le_trans (le_trans (by norm_num) (le_max_left _ _)) (hB 0)
  have hF0 : 0 ≤ F := by
    have h1 := (hF 0).1
    have h2 := t_pos ht ht0 (Fin.castSucc 0)
    have h3 := t_pos ht ht0 (Fin.succ 0)
    by_contra hc
    nlinarith
  gcongr
end

/-! ## Cases: the WMAP5 and the FSPS cosmologies at redshift 1/2 -/

lemma lookback_half {Om0 h : ℝ} (h0 : 0 < Om0) (h1 : Om0 ≤ 1) (hh : 0 < h) :
    0 < lookback_to_z (1 / 2) Om0 (-1) 0 h ∧ lookback_to_z (1 / 2) Om0 (-1) 0 h ≤ Th h * 0.51 := by
  have hO : PhysicalOm Om0 := ⟨h0.le, h1⟩
  refine ⟨(C49_positive (by norm_num) hO hh (-1) 0).2.2.2.1, ?_⟩
  have main := (C73_lookback_accuracy (z := 1 / 2) (by norm_num) hO hh).2
  rw [Th_eq] at main
  refine main.trans (mul_le_mul_of_nonneg_left ?_ (Th_pos hh).le)
  have b := intervalIntegral.norm_integral_le_of_norm_le_const (a := 0) (b := 1 / 2) (C := 1) (f := fun t => 1 / Real.sqrt (friedmann Om0 (-1) 0 t) / (1 + t)) (fun x hx => by
    rw [uIoc_of_le (by norm_num)] at hx
    have hx0 := hx.1
    have hf : 1 ≤ friedmann Om0 (-1) 0 x := by
      rw [friedmann_lcdm Om0 (by linarith)]
      have : (1:ℝ) ≤ (1 + x) ^ 3 := one_le_pow₀ (by linarith)
      unfold LP
      nlinarith
    have hs : 1 ≤ Real.sqrt (friedmann Om0 (-1) 0 x) := Real.one_le_sqrt.mpr hf
    rw [Real.norm_eq_abs, abs_of_nonneg (by positivity), div_div, div_le_one (by positivity)]
    nlinarith)
  have b := (le_abs_self _).trans b
  norm_num at b ⊢
  linarith

lemma case_age_wmap5 : 6 < ageAt (1 / 2) 0.277 (-1) 0 0.702 ∧ ageAt (1 / 2) 0.277 (-1) 0 0.702 < 14 := by
  have a := C95_wmap5
  have l := lookback_half (Om0 := 0.277) (h := 0.702) (by norm_num) (by norm_num) (by norm_num)
  have t : Th 0.702 ≤ 14 := by unfold Th MPC YEAR; norm_num
  have e : WMAP5 = ⟨0.277, -1, 0, 0.702⟩ := by unfold WMAP5; norm_num
  rw [e] at a
  simp only [ageAt, age_at_z, age_at_z_kern, Jnp.vmap]
  dsimp only at a
  constructor <;> linarith [a.1, a.2, l.1, l.2]

lemma case_age_fsps : 6 < ageAt (1 / 2) 0.27 (-1) 0 0.72 ∧ ageAt (1 / 2) 0.27 (-1) 0 0.72 < 13.5 := by
  have a := C95_fsps
  have l := lookback_half (Om0 := 0.27) (h := 0.72) (by norm_num) (by norm_num) (by norm_num)
  have t : Th 0.72 ≤ 14 := by unfold Th MPC YEAR; norm_num
  have e : FSPS_COSMO = ⟨0.27, -1, 0, 0.72⟩ := by unfold FSPS_COSMO; norm_num
  rw [e] at a
  simp only [ageAt, age_at_z, age_at_z_kern, Jnp.vmap]
  dsimp only at a
  constructor <;> linarith [a.1, a.2, l.1, l.2]

/-- case: with h = 0.75 in place of 0.72 the universe is 4 per cent younger at every redshift -/
example : ageAt (1 / 2) 0.27 (-1) 0 0.75 = 0.96 * ageAt (1 / 2) 0.27 (-1) 0 0.72 := by
  rw [(C168_hubble_scaling (h := 0.72) (h' := 0.75) (1 / 2) 0.27 (-1) 0 (by norm_num) (by norm_num)).1]
  norm_num
  ring

section
attribute [local instance] Dtype.float64

lemma case_inputs_at {T : ℝ} (h : 5 < T) (h' : T < 14) : SedInputs (n := 1) (m := 0) (k := 2) caseT caseA caseZ T 0.2 ∧ 0 < massInRange (n := 1) (m := 0) caseT caseS caseA T := by
  have y : caseT 0 < T - (10:ℝ) ^ (get_lg_age_bin_edges (m := 0) caseA 0) := by
    have h : get_lg_age_bin_edges (m := 0) caseA 0 = -2.5 := age_edges_example.1
    have : (10:ℝ) ^ (-2.5:ℝ) < (10:ℝ) ^ (0:ℝ) := Real.rpow_lt_rpow_of_exponent_lt (by norm_num) (by norm_num)
    rw [h]
    norm_num [caseT] at this ⊢
    linarith
  have o : T - (10:ℝ) ^ (get_lg_age_bin_edges (m := 0) caseA (Fin.last 3)) < caseT (Fin.last 2) := by
    have := Real.rpow_pos_of_pos (show (0:ℝ) < 10 by norm_num) (get_lg_age_bin_edges (m := 0) caseA (Fin.last 3))
    norm_num [caseT, Fin.last] at this ⊢
    linarith
  exact ⟨{ case_sedInputs with young := y, old := o },
    (C17_total_mass_pos_iff (n := 1) (m := 0) caseT caseS caseA T 1e-14 (by norm_num) caseT_mono caseT_zero caseT_resolved caseA_mono).2.mpr ⟨y, o⟩⟩

lemma case_sed_pos {T : ℝ} (h : 5 < T) (h' : T < 14) (l : Fin 3) :
    0 < (calc_rest_sed_sfh_table_met_table (n := 1) (k := 2) (m := 0) caseT caseS caseRise 0.2 caseZ caseA (fun _ _ _ => 1) T).rest_sed l := by
  have I := (case_inputs_at h h').1
  have h7 : ∀ i, |caseRise i| ≤ 7 := fun i => by fin_cases i <;> norm_num [caseRise, abs_le]
  rw [(mix_form (n := 1) (k := 2) (m := 0) (zt := caseRise) (s := caseS) (μ := 0) I h7 l).2]
  have hA := C17_age_weights_prob_mild_partial (n := 1) (m := 0) caseT caseS caseA T caseT_mono caseT_zero caseT_resolved caseA_mild I.young I.old
  simp only [mul_one, (C21_lgmet_weights_prob_mild_partial _ _ I.width (k := 2) caseZ caseZ_mild caseZ_lo caseZ_hi).2, hA.2]
  exact massFormed_pos _

/-- case: between the WMAP5 and the FSPS cosmologies, flat SSP spectra, redshift 1/2 -/
example : ∃ C, |calc_obs_mag (n := 1) (m := 2) caseWave (calc_rest_sed_sfh_table_met_table (n := 1) (k := 2) (m := 0) caseT caseS caseRise 0.2 caseZ caseA (fun _ _ _ => 1) (ageAt (1 / 2) 0.27 (-1) 0 0.72)).rest_sed caseFW caseFT (1 / 2) 0.27 (-1) 0 0.72 -
    calc_obs_mag (n := 1) (m := 2) caseWave (calc_rest_sed_sfh_table_met_table (n := 1) (k := 2) (m := 0) caseT caseS caseRise 0.2 caseZ caseA (fun _ _ _ => 1) (ageAt (1 / 2) 0.277 (-1) 0 0.702)).rest_sed caseFW caseFT (1 / 2) 0.277 (-1) 0 0.702| ≤ C := by
  obtain ⟨F, hF⟩ := case_growth
  have a := case_age_wmap5
  have a' := case_age_fsps
  obtain ⟨I, r1⟩ := case_inputs_at (by linarith [a.1]) a.2
  obtain ⟨I', r2⟩ := case_inputs_at (T := ageAt (1 / 2) 0.27 (-1) 0 0.72) (by linarith [a'.1]) (by linarith [a'.2])
  have h7 : ∀ i, |caseRise i| ≤ 7 := fun i => by fin_cases i <;> norm_num [caseRise, abs_le]
  exact ⟨_, C168_cosmology (n := 1) (k := 2) (m := 0) (w := 1) (q := 2) (s := caseS) (a := caseA) (y := caseZ) (zt := caseRise) (flux := fun _ _ _ => 1) (scatter := 0.2) (B := 3) (F := F) (R := 1) (L := 0.1)
    (d := min (massInRange (n := 1) (m := 0) caseT caseS caseA (ageAt (1 / 2) 0.277 (-1) 0 0.702)) (massInRange (n := 1) (m := 0) caseT caseS caseA (ageAt (1 / 2) 0.27 (-1) 0 0.72)))
    (fun i => by fin_cases i <;> norm_num [caseS]) hF h7 (by norm_num) (by norm_num) case_slope (fun _ _ _ => one_pos) (fun _ _ _ _ _ => by norm_num) (lt_min r1 r2) caseWave_mono.monotone case_good
    (by norm_num) (by norm_num) (by norm_num) (by norm_num) (by norm_num) (by unfold NonStiff; norm_num) (by norm_num) (by norm_num) I I' (min_le_left _ _) (min_le_right _ _)
    (case_detected fun l => case_sed_pos (by linarith [a.1]) a.2 l)⟩
/-- case: the FSPS cosmology at redshift 1/2: 0.01 Gyr from the textbook age -/
lemma case_exact_age : |ageAt (1 / 2) 0.27 (-1) 0 0.72 - hubble_time 0 0.27 (-1) 0 0.72 * lcdmAgeAt 0.27 (1 / 2)| ≤ 0.01 := by
  have A := C95_age_at_redshift (z := 1 / 2) (Om0 := 0.27) (h := 0.72) (by norm_num) (by norm_num) (by norm_num) (by norm_num)
  have B := C95_age_closed_form (Om0 := 0.27) (h := 0.72) (by norm_num) (by norm_num) (by norm_num)
  have a := C95_fsps
  have e : FSPS_COSMO = ⟨0.27, -1, 0, 0.72⟩ := by unfold FSPS_COSMO; norm_num
  rw [e] at a
  dsimp only at a
  have T0 : 0 < hubble_time 0 0.27 (-1) 0 0.72 := by rw [Th_eq]; exact Th_pos (by norm_num)
  have T1 : hubble_time 0 0.27 (-1) 0 0.72 ≤ 14 := by rw [Th_eq]; unfold Th MPC YEAR; norm_num
  have r : (2.2e-5 : ℝ) / Real.sqrt 0.27 ≤ 4.4e-5 := by
    have : (0.5 : ℝ) ≤ Real.sqrt 0.27 := Real.le_sqrt_of_sq_le (by norm_num)
    rw [div_le_iff₀ (by linarith)]
    linarith
  have m := mul_le_mul_of_nonneg_left r T0.le
  rw [abs_le]
  norm_num at A B m a ⊢
  constructor <;> nlinarith [A.1, A.2, B.1, B.2, a.1, a.2]

/-- case: the FSPS cosmology with h = 0.75 in place of 0.72, redshift 1/2 -/
example : ∃ C, |calc_obs_mag (n := 1) (m := 2) caseWave (calc_rest_sed_sfh_table_lognormal_mdf (n := 1) (k := 2) (m := 0) caseT caseS (-2.6) 0.2 caseZ caseA (fun _ _ _ => 1) (ageAt (1 / 2) 0.27 (-1) 0 0.75)).rest_sed caseFW caseFT (1 / 2) 0.27 (-1) 0 0.75 -
    (calc_obs_mag (n := 1) (m := 2) caseWave (calc_rest_sed_sfh_table_lognormal_mdf (n := 1) (k := 2) (m := 0) caseT caseS (-2.6) 0.2 caseZ caseA (fun _ _ _ => 1) (ageAt (1 / 2) 0.27 (-1) 0 0.72)).rest_sed caseFW caseFT (1 / 2) 0.27 (-1) 0 0.72 -
      5 * Real.logb 10 (0.75 / 0.72))| ≤ C := by
  obtain ⟨F, hF⟩ := case_growth
  have a := case_age_fsps
  have a' := (C168_hubble_scaling (h := 0.72) (h' := 0.75) (1 / 2) 0.27 (-1) 0 (by norm_num) (by norm_num)).1
  have a1 : 5 < ageAt (1 / 2) 0.27 (-1) 0 0.75 := by rw [a']; norm_num; linarith [a.1]
  have a2 : ageAt (1 / 2) 0.27 (-1) 0 0.75 < 14 := by rw [a']; norm_num; linarith [a.2]
  obtain ⟨-, r1⟩ := case_inputs_at (T := ageAt (1 / 2) 0.27 (-1) 0 0.72) (by linarith [a.1]) (by linarith [a.2])
  obtain ⟨-, r2⟩ := case_inputs_at a1 a2
  refine ⟨_, C168_hubble (n := 1) (k := 2) (m := 0) (w := 1) (q := 2) (s := caseS) (a := caseA) (y := caseZ) (flux := fun _ _ _ => 1) (gal_lgmet := -2.6) (scatter := 0.2) (B := 3) (F := F) (R := 1)
    (d := min (massInRange (n := 1) (m := 0) caseT caseS caseA (ageAt (1 / 2) 0.27 (-1) 0 0.72)) (massInRange (n := 1) (m := 0) caseT caseS caseA (ageAt (1 / 2) 0.27 (-1) 0 0.75)))
    caseT_mono caseT_zero caseT_resolved (fun i => by fin_cases i <;> norm_num [caseS]) hF caseA_edges case_Zprob (fun _ _ _ => one_pos) (fun _ _ _ _ _ => by norm_num) (lt_min r1 r2) caseWave_mono.monotone case_good
    (by norm_num) ⟨by norm_num, by norm_num⟩ (by norm_num) (by norm_num) (by linarith [a.1]) (by linarith) (min_le_left _ _) (min_le_right _ _) (case_detected fun l => ?_)⟩
  beta_reduce
  rw [sed_value case_Zprob.2 (ages_prob caseT_mono caseT_zero caseA_edges r1).2]
  exact mul_pos (massFormed_pos _) (lt_of_lt_of_le one_pos (le_avg (X := fun _ _ => (1:ℝ)) case_Zprob (ages_prob caseT_mono caseT_zero caseA_edges r1) fun _ _ => le_rfl))

/-- case: the FSPS cosmology at redshift 1/2, observed at the code's and at the textbook age -/
example : ∃ C, |calc_obs_mag (n := 1) (m := 2) caseWave (calc_rest_sed_sfh_table_lognormal_mdf (n := 1) (k := 2) (m := 0) caseT caseS (-2.6) 0.2 caseZ caseA (fun _ _ _ => 1) (ageAt (1 / 2) 0.27 (-1) 0 0.72)).rest_sed caseFW caseFT (1 / 2) 0.27 (-1) 0 0.72 -
    calc_obs_mag (n := 1) (m := 2) caseWave (calc_rest_sed_sfh_table_lognormal_mdf (n := 1) (k := 2) (m := 0) caseT caseS (-2.6) 0.2 caseZ caseA (fun _ _ _ => 1) (hubble_time 0 0.27 (-1) 0 0.72 * lcdmAgeAt 0.27 (1 / 2))).rest_sed caseFW caseFT (1 / 2) 0.27 (-1) 0 0.72| ≤ C := by
  obtain ⟨F, hF⟩ := case_growth
  have a := case_age_fsps
  have x := abs_le.mp case_exact_age
  have a1 : 5 < hubble_time 0 0.27 (-1) 0 0.72 * lcdmAgeAt 0.27 (1 / 2) := by linarith [x.2, a.1]
  obtain ⟨-, r1⟩ := case_inputs_at (T := ageAt (1 / 2) 0.27 (-1) 0 0.72) (by linarith [a.1]) (by linarith [a.2])
  obtain ⟨-, r2⟩ := case_inputs_at a1 (by linarith [x.1, a.2])
  refine ⟨_, (C168_exact_age (n := 1) (k := 2) (m := 0) (w := 1) (q := 2) (s := caseS) (a := caseA) (y := caseZ) (flux := fun _ _ _ => 1) (gal_lgmet := -2.6) (scatter := 0.2) (B := 3) (F := F) (R := 1)
    (d := min (massInRange (n := 1) (m := 0) caseT caseS caseA (ageAt (1 / 2) 0.27 (-1) 0 0.72)) (massInRange (n := 1) (m := 0) caseT caseS caseA (hubble_time 0 0.27 (-1) 0 0.72 * lcdmAgeAt 0.27 (1 / 2))))
    caseT_mono caseT_zero caseT_resolved (fun i => by fin_cases i <;> norm_num [caseS]) hF caseA_edges case_Zprob (fun _ _ _ => one_pos) (fun _ _ _ _ _ => by norm_num) (lt_min r1 r2) caseWave_mono.monotone case_good
    (by norm_num) (by norm_num) (by norm_num) (by norm_num)).2 (by linarith [a.1]) (by linarith) (min_le_left _ _) (min_le_right _ _) (case_detected fun l => ?_)⟩
  beta_reduce
  rw [sed_value case_Zprob.2 (ages_prob caseT_mono caseT_zero caseA_edges r2).2]
  exact mul_pos (massFormed_pos _) (lt_of_lt_of_le one_pos (le_avg (X := fun _ _ => (1:ℝ)) case_Zprob (ages_prob caseT_mono caseT_zero caseA_edges r2) fun _ _ => le_rfl))
end

end Dsps.Props
