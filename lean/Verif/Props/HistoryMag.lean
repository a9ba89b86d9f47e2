import Verif.Props.SecondOrder
import Verif.Props.BirthRate
import Verif.Lemmas.RoundCosmoQuad

/-! C168: how errors of a spectrum, of a star formation history and of the observation time reach the magnitudes
(`/repo/dsps/photometry/photometry_kernels.py`, `/repo/dsps/sed/ssp_weights.py`). -/
namespace Dsps.Props
open Dsps.Utils Dsps.Lemmas Dsps.Photometry Dsps.Constants Dsps.StellarAgeWeights Dsps.SspWeights Jnp Spec Set
open Dsps.MetallicityWeights (calc_lgmet_weights_from_lognormal_mdf)
open scoped BigOperators

variable {n m k w : ℕ}

section mags
variable [Dtype] {wave f g : Fin (n + 2) → ℝ} {fw ft : Fin (m + 1) → ℝ} {z p q e Om0 w0 wa h : ℝ}

/-- C168: a spectrum between `p` and `q` times another one is between `-2.5 log10 q` and `-2.5 log10 p` magnitudes fainter, through every filter, at every redshift. -/
theorem C168_mag_between (hw : Monotone wave) (hf : GoodFilter fw ft) (hz : -1 < z) (hp : 0 < p) (hq : 0 < q) (h1 : ∀ i, p * f i ≤ g i) (h2 : ∀ i, g i ≤ q * f i)
    (hF : 0 < obs_flux_ssp wave f fw ft z / flux_ab0_at_10pc fw ft) :
    calc_obs_mag wave g fw ft z Om0 w0 wa h - calc_obs_mag wave f fw ft z Om0 w0 wa h ∈ Icc (-2.5 * Real.logb 10 q) (-2.5 * Real.logb 10 p) := by
  have a1 := (C39_pogson wave f fw ft z Om0 w0 wa h hp hF).1
  have a2 := (C39_pogson wave f fw ft z Om0 w0 wa h hq hF).1
  have hpF : 0 < obs_flux_ssp wave (fun i => p * f i) fw ft z / flux_ab0_at_10pc fw ft := by
    rw [obs_flux_smul, mul_div_assoc]; exact mul_pos hp hF
  have hgF : 0 < obs_flux_ssp wave g fw ft z / flux_ab0_at_10pc fw ft :=
    hpF.trans_le (div_le_div_of_nonneg_right (obs_flux_mono hw hf hz h1) (ab0_nonneg hf))
  have b1 := (C42_monotone hw hf hz h1 Om0 w0 wa h).2.1 hpF
  have b2 := (C42_monotone hw hf hz h2 Om0 w0 wa h).2.1 hgF
  constructor <;> linarith

/-- C168, rest-frame magnitudes -/
theorem C168_rest_mag_between (hw : Monotone wave) (hf : GoodFilter fw ft) (hp : 0 < p) (hq : 0 < q) (h1 : ∀ i, p * f i ≤ g i) (h2 : ∀ i, g i ≤ q * f i)
    (hF : 0 < calc_rest_flux wave f fw ft) :
    calc_rest_mag wave g fw ft - calc_rest_mag wave f fw ft ∈ Icc (-2.5 * Real.logb 10 q) (-2.5 * Real.logb 10 p) := by
  have a1 := C39_pogson_rest wave f fw ft hp hF
  have a2 := C39_pogson_rest wave f fw ft hq hF
  have sc : ∀ c, calc_rest_flux wave (fun i => c * f i) fw ft = c * calc_rest_flux wave f fw ft := fun c => by
    unfold calc_rest_flux
    simp only [← obs_eq_rest_at_zero, obs_flux_smul]
    ring
  have hpF : 0 < calc_rest_flux wave (fun i => p * f i) fw ft := by rw [sc]; exact mul_pos hp hF
  have hgF : 0 < calc_rest_flux wave g fw ft := hpF.trans_le (C42_monotone hw hf (z := 0) (by norm_num) h1 0 0 0 0).1
  have b1 := (C42_monotone hw hf (z := 0) (by norm_num) h1 0 0 0 0).2.2 hpF
  have b2 := (C42_monotone hw hf (z := 0) (by norm_num) h2 0 0 0 0).2.2 hgF
  constructor <;> linarith

/-- C168: **a relative error of the spectrum is at most `1.09` times that error in magnitudes**, uniformly in filter, wavelength grid, redshift and cosmology. -/
theorem C168_mag_relative (hw : Monotone wave) (hf : GoodFilter fw ft) (hz : -1 < z) (he : 0 ≤ e) (h1 : ∀ i, f i ≤ (1 + e) * g i) (h2 : ∀ i, g i ≤ (1 + e) * f i)
    (hF : 0 < obs_flux_ssp wave f fw ft z / flux_ab0_at_10pc fw ft) :
    |calc_obs_mag wave g fw ft z Om0 w0 wa h - calc_obs_mag wave f fw ft z Om0 w0 wa h| ≤ 2.5 * Real.logb 10 (1 + e) ∧ 2.5 * Real.logb 10 (1 + e) ≤ 1.09 * e := by
  have hp : 0 < 1 + e := by linarith
  have := C168_mag_between (Om0 := Om0) (w0 := w0) (wa := wa) (h := h) hw hf hz (inv_pos.mpr hp) hp (fun i => by rw [inv_mul_le_iff₀ hp]; exact h1 i) h2 hF
  rw [Real.logb_inv] at this
  refine ⟨abs_le.mpr ⟨by linarith [this.1], by linarith [this.2]⟩, ?_⟩
  have hl : Real.log (1 + e) ≤ e := by linarith [Real.log_le_sub_one_of_pos hp]
  have h10 := log10_bounds.1
  unfold Real.logb
  rw [← mul_div_assoc, div_le_iff₀ (by linarith)]
  nlinarith
end mags

section time
variable [Dtype] {t s : Fin (n + 2) → ℝ} {a : Fin (m + 3) → ℝ} {y : Fin (k + 3) → ℝ} {flux : Fin (k + 3) → Fin (m + 3) → Fin w → ℝ} {t_obs t_obs' gal_lgmet scatter : ℝ}

/-- **Specification.** mass formed in the range of ages of the SSP grid, of a galaxy observed at `t_obs` -/
noncomputable def massInRange (t s : Fin (n + 2) → ℝ) (a : Fin (m + 3) → ℝ) (t_obs : ℝ) : ℝ :=
  massFormed t s 1e-14 (birthTime t_obs (get_lg_age_bin_edges a 0)) - massFormed t s 1e-14 (birthTime t_obs (get_lg_age_bin_edges a (Fin.last (m + 3))))

omit [Dtype] in
lemma floor_pos : (0:ℝ) < SFR_MIN := by norm_num [SFR_MIN]

lemma ages_prob (ht : StrictMono t) (ht0 : 0.001 < t 0) (he : Monotone (get_lg_age_bin_edges a)) (hd : 0 < massInRange t s a t_obs) :
    IsProbVector (calc_age_weights_from_sfh_table t s a t_obs SFR_MIN) := by
  have hS : SFR_MIN = 1e-14 := rfl
  constructor
  · intro j
    rw [age_weights_eq]
    refine div_nonneg (sub_nonneg.mpr (massFormed_mono ht ht0 floor_pos (birthTime_pos _ _) (birthTime_anti _ (he (Fin.castSucc_lt_succ (i := j)).le)))) ?_
    rw [hS]; exact hd.le
  · simp only [age_weights_eq]
    rw [← Finset.sum_div, sum_telescope' (fun i => massFormed t s SFR_MIN (birthTime t_obs (get_lg_age_bin_edges a i))), hS]
    exact div_self hd.ne'

lemma sed_value (hZ : ∑ i, calc_lgmet_weights_from_lognormal_mdf gal_lgmet scatter y i = 1) (hA : ∑ j, calc_age_weights_from_sfh_table t s a t_obs SFR_MIN j = 1) (l : Fin w) :
    (calc_rest_sed_sfh_table_lognormal_mdf t s gal_lgmet scatter y a flux t_obs).rest_sed l = massFormed t s 1e-14 t_obs *
      ∑ i, ∑ j, calc_lgmet_weights_from_lognormal_mdf gal_lgmet scatter y i * calc_age_weights_from_sfh_table t s a t_obs SFR_MIN j * flux i j l := by
  have hsed := (C25_sed_formula t s (fun _ => 0) gal_lgmet scatter y a flux t_obs SFR_MIN l).1
  have hw : ∀ i j, (calc_rest_sed_sfh_table_lognormal_mdf t s gal_lgmet scatter y a flux t_obs).weights i j =
      calc_lgmet_weights_from_lognormal_mdf gal_lgmet scatter y i * calc_age_weights_from_sfh_table t s a t_obs SFR_MIN j := by
    intro i j
    have e : (∑ i, ∑ j, calc_lgmet_weights_from_lognormal_mdf gal_lgmet scatter y i * calc_age_weights_from_sfh_table t s a t_obs SFR_MIN j) = 1 := by
      rw [← Finset.sum_mul_sum, hZ, hA, one_mul]
    simp only [calc_rest_sed_sfh_table_lognormal_mdf, calc_ssp_weights_sfh_table_lognormal_mdf, sum2_eq, e, div_one]
  simp only at hsed ⊢
  rw [hsed]
  simp only [hw]
  rfl

omit [Dtype] in
lemma le_avg {ι κ : Type*} [Fintype ι] [Fintype κ] {Z : ι → ℝ} {A : κ → ℝ} {X : ι → κ → ℝ} {c : ℝ} (hZ : IsProbVector Z) (hA : IsProbVector A) (h : ∀ i j, c ≤ X i j) :
    c ≤ ∑ i, ∑ j, Z i * A j * X i j := by
  have e : (∑ i, ∑ j, Z i * A j * c) = c := by
    simp only [← Finset.sum_mul]
    rw [← Finset.sum_mul_sum, hZ.2, hA.2, one_mul, one_mul]
  calc c = ∑ i, ∑ j, Z i * A j * c := e.symm
    _ ≤ _ := Finset.sum_le_sum fun i _ => Finset.sum_le_sum fun j _ => mul_le_mul_of_nonneg_left (h i j) (mul_nonneg (hZ.1 i) (hA.1 j))

omit [Dtype] in
lemma avg_le {ι κ : Type*} [Fintype ι] [Fintype κ] {Z : ι → ℝ} {A : κ → ℝ} {X : ι → κ → ℝ} {c : ℝ} (hZ : IsProbVector Z) (hA : IsProbVector A) (h : ∀ i j, X i j ≤ c) :
    ∑ i, ∑ j, Z i * A j * X i j ≤ c := by
  have := le_avg (X := fun i j => -X i j) hZ hA (fun i j => neg_le_neg (h i j))
  simp only [mul_neg, Finset.sum_neg_distrib] at this
  linarith

omit [Dtype] in
/-- averages of one table with two sets of age weights -/
lemma avg_diff {ι κ : Type*} [Fintype ι] [Fintype κ] {Z : ι → ℝ} {A A' : κ → ℝ} {X : ι → κ → ℝ} {c E : ℝ} (hZ : IsProbVector Z) (hX : ∀ i j, 0 ≤ X i j ∧ X i j ≤ c)
    (hE : ∀ j, |A' j - A j| ≤ E) : ∑ i, ∑ j, Z i * A' j * X i j - ∑ i, ∑ j, Z i * A j * X i j ≤ Fintype.card κ * E * c := by
  have : (∑ i, ∑ _j : κ, Z i * (E * c)) = Fintype.card κ * E * c := by
    simp only [Finset.sum_const, Finset.card_univ, nsmul_eq_mul]
    rw [← Finset.mul_sum, ← Finset.sum_mul, hZ.2]; ring
  rw [← this, ← Finset.sum_sub_distrib]
  refine Finset.sum_le_sum fun i _ => ?_
  rw [← Finset.sum_sub_distrib]
  refine Finset.sum_le_sum fun j _ => ?_
  rw [show Z i * A' j * X i j - Z i * A j * X i j = Z i * ((A' j - A j) * X i j) by ring]
  refine mul_le_mul_of_nonneg_left ?_ (hZ.1 i)
  have h1 := (le_abs_self _).trans (hE j)
  have h2 := (abs_nonneg _).trans (hE j)
  exact (mul_le_mul_of_nonneg_right h1 (hX i j).1).trans (mul_le_mul_of_nonneg_left (hX i j).2 h2)

/-- one side of the theorem below -/
lemma sed_time_le {B F R d : ℝ} (ht : StrictMono t) (ht0 : 0.001 < t 0) (hr : Resolved fun i => log10 (t i)) (hB : ∀ i, max 1e-14 (s i) ≤ B)
    (hF : ∀ k : Fin (n + 1), t k.succ ≤ F * t k.castSucc ∧ 1 + Real.log (tableMass t s 1e-14 k.succ / tableMass t s 1e-14 k.castSucc) ≤ F)
    (he : Monotone (get_lg_age_bin_edges a)) (hZ : IsProbVector (calc_lgmet_weights_from_lognormal_mdf gal_lgmet scatter y))
    (hx : ∀ i j l, 0 < flux i j l) (hR : ∀ i j i' j' l, flux i j l ≤ R * flux i' j' l) (h0 : 0.001 ≤ t_obs) (h0' : 0.001 ≤ t_obs') (hd : 0 < d)
    (hD : d ≤ massInRange t s a t_obs) (hD' : d ≤ massInRange t s a t_obs') (l : Fin w) :
    (calc_rest_sed_sfh_table_lognormal_mdf t s gal_lgmet scatter y a flux t_obs').rest_sed l ≤
      (1 + (4 * m + 13) * R * (1e9 * B * F * |t_obs' - t_obs|) / d) * (calc_rest_sed_sfh_table_lognormal_mdf t s gal_lgmet scatter y a flux t_obs).rest_sed l := by
  have hA := ages_prob ht ht0 he (hd.trans_le hD)
  have hA' := ages_prob ht ht0 he (hd.trans_le hD')
  rw [sed_value hZ.2 hA.2, sed_value hZ.2 hA'.2]
  have p0 : 0 < t_obs := lt_of_lt_of_le (by norm_num) h0
  have p0' : 0 < t_obs' := lt_of_lt_of_le (by norm_num) h0'
  have hL : 0 ≤ 1e9 * B * F := by
    have := C167_mass_lipschitz (by norm_num) ht ht0 hr hB hF (τ := 1) (τ' := 2) one_pos (by norm_num)
    have h2 := massFormed_mono (s := s) (sfr_min := 1e-14) ht ht0 (by norm_num) one_pos (by norm_num : (1:ℝ) ≤ 2)
    linarith
  have hlip : massFormed t s 1e-14 t_obs' - massFormed t s 1e-14 t_obs ≤ 1e9 * B * F * |t_obs' - t_obs| := by
    rcases le_total t_obs t_obs' with h | h
    · rw [abs_of_nonneg (sub_nonneg.mpr h)]
      exact C167_mass_lipschitz (by norm_num) ht ht0 hr hB hF p0 h
    · have := massFormed_mono (s := s) (sfr_min := 1e-14) ht ht0 (by norm_num) p0' h
      have := mul_nonneg hL (abs_nonneg (t_obs' - t_obs))
      linarith
  have hage := fun j => C167_age_weights_lipschitz (a := a) (t_obs := t_obs) (t_obs' := t_obs') (sfr_min := SFR_MIN) floor_pos ht ht0 hr hB hF he j (hd.trans_le hD)
  have hMd : d ≤ massFormed t s 1e-14 t_obs := by
    have h1 := massFormed_pos (t := t) (s := s) (sfr_min := 1e-14) (birthTime t_obs (get_lg_age_bin_edges a (Fin.last (m + 3))))
    have h2 : massFormed t s 1e-14 (birthTime t_obs (get_lg_age_bin_edges a 0)) ≤ massFormed t s 1e-14 t_obs := by
      exact massFormed_mono ht ht0 (by norm_num) (birthTime_pos _ _) (birth_mem h0 le_rfl).2
    unfold massInRange at hD
    linarith
  set Z := calc_lgmet_weights_from_lognormal_mdf gal_lgmet scatter y
  set A := calc_age_weights_from_sfh_table t s a t_obs SFR_MIN
  set A' := calc_age_weights_from_sfh_table t s a t_obs' SFR_MIN
  set P := ∑ i, ∑ j, Z i * A j * flux i j l with hP
  set Δ := 1e9 * B * F * |t_obs' - t_obs| with hΔ
  have hΔ0 : 0 ≤ Δ := mul_nonneg hL (abs_nonneg _)
  have hPb : ∀ i j, flux i j l ≤ R * P := by
    intro i j
    have := le_avg (X := fun i' j' => R * flux i' j' l) hZ hA (fun i' j' => hR i j i' j' l)
    refine this.trans_eq ?_
    rw [hP, Finset.mul_sum]
    refine Finset.sum_congr rfl fun i' _ => ?_
    rw [Finset.mul_sum]
    exact Finset.sum_congr rfl fun j' _ => by ring
  have hRP : 0 < R * P := (hx 0 0 l).trans_le (hPb 0 0)
  have hP' : ∑ i, ∑ j, Z i * A' j * flux i j l ≤ R * P := avg_le hZ hA' hPb
  have hdiff : ∑ i, ∑ j, Z i * A' j * flux i j l - P ≤ (m + 3) * (4 * Δ / massInRange t s a t_obs) * (R * P) := by
    have := avg_diff (A := A) (A' := A') (X := fun i j => flux i j l) hZ (fun i j => ⟨(hx i j l).le, hPb i j⟩) (E := 4 * Δ / massInRange t s a t_obs) hage
    simp only [Fintype.card_fin] at this
    push_cast at this
    exact this
  set M := massFormed t s 1e-14 t_obs
  set M' := massFormed t s 1e-14 t_obs'
  set P' := ∑ i, ∑ j, Z i * A' j * flux i j l
  have hM : 0 < M := hd.trans_le hMd
  have e1 : (M' - M) * P' ≤ Δ * (R * P) := by
    have hP'0 : 0 ≤ P' := Finset.sum_nonneg fun i _ => Finset.sum_nonneg fun j _ => mul_nonneg (mul_nonneg (hZ.1 i) (hA'.1 j)) (hx i j l).le
    exact (mul_le_mul_of_nonneg_right hlip hP'0).trans (mul_le_mul_of_nonneg_left hP' hΔ0)
  have e2 : Δ * (R * P) ≤ M * (Δ / d * (R * P)) := by
    have : Δ ≤ M * (Δ / d) := by
      rw [mul_div_assoc', le_div_iff₀ hd, mul_comm]
      exact mul_le_mul_of_nonneg_right hMd hΔ0
    nlinarith [mul_le_mul_of_nonneg_right this hRP.le]
  have e3 : M * (P' - P) ≤ M * ((m + 3) * (4 * Δ / d) * (R * P)) := by
    refine mul_le_mul_of_nonneg_left (hdiff.trans ?_) hM.le
    have : 4 * Δ / massInRange t s a t_obs ≤ 4 * Δ / d := div_le_div_of_nonneg_left (by positivity) hd hD
    gcongr
  have e4 : (1 + (4 * m + 13) * R * Δ / d) * (M * P) = M * P + M * (Δ / d * (R * P)) + M * ((m + 3) * (4 * Δ / d) * (R * P)) := by ring
  rw [e4]
  linarith [show M' * P' = M * P + (M' - M) * P' + M * (P' - P) by ring]

/-- C168: **magnitudes depend on the observation time smoothly**, with an explicit constant that is the same for every filter, wavelength grid and redshift: `B` bounds the
tabulated rates, `F` the growth of time and mass between table times, `R` the contrast of the SSP spectra at one wavelength and `d` bounds from below the mass formed in the age range. -/
theorem C168_observation_time {B F R d z Om0 w0 wa h : ℝ} {q : ℕ} {wave : Fin (w + 2) → ℝ} {flux : Fin (k + 3) → Fin (m + 3) → Fin (w + 2) → ℝ} {fw ft : Fin (q + 1) → ℝ}
    (ht : StrictMono t) (ht0 : 0.001 < t 0) (hr : Resolved fun i => log10 (t i)) (hB : ∀ i, max 1e-14 (s i) ≤ B)
    (hF : ∀ k : Fin (n + 1), t k.succ ≤ F * t k.castSucc ∧ 1 + Real.log (tableMass t s 1e-14 k.succ / tableMass t s 1e-14 k.castSucc) ≤ F)
    (he : Monotone (get_lg_age_bin_edges a)) (hZ : IsProbVector (calc_lgmet_weights_from_lognormal_mdf gal_lgmet scatter y))
    (hx : ∀ i j l, 0 < flux i j l) (hR : ∀ i j i' j' l, flux i j l ≤ R * flux i' j' l) (h0 : 0.001 ≤ t_obs) (h0' : 0.001 ≤ t_obs') (hd : 0 < d)
    (hD : d ≤ massInRange t s a t_obs) (hD' : d ≤ massInRange t s a t_obs') (hw : Monotone wave) (hf : GoodFilter fw ft) (hz : -1 < z) :
    let sed := fun t_obs => (calc_rest_sed_sfh_table_lognormal_mdf t s gal_lgmet scatter y a flux t_obs).rest_sed
    0 < obs_flux_ssp wave (sed t_obs) fw ft z / flux_ab0_at_10pc fw ft →
    |calc_obs_mag wave (sed t_obs') fw ft z Om0 w0 wa h - calc_obs_mag wave (sed t_obs) fw ft z Om0 w0 wa h| ≤
      1.09 * ((4 * m + 13) * R * (1e9 * B * F * |t_obs' - t_obs|) / d) := by
  intro sed hpos
  have hR0 : 0 < R := by
    have h1 := hR 0 0 0 0 0
    have h2 := hx 0 0 0
    by_contra hc
    nlinarith [mul_nonneg (neg_nonneg.mpr (not_lt.mp hc)) h2.le]
  have hL : 0 ≤ 1e9 * B * F := by
    have := C167_mass_lipschitz (by norm_num) ht ht0 hr hB hF (τ := 1) (τ' := 2) one_pos (by norm_num)
    have h2 := massFormed_mono (s := s) (sfr_min := 1e-14) ht ht0 (by norm_num) one_pos (by norm_num : (1:ℝ) ≤ 2)
    linarith
  have u := sed_time_le (gal_lgmet := gal_lgmet) (scatter := scatter) (y := y) ht ht0 hr hB hF he hZ hx hR h0 h0' hd hD hD'
  have v := sed_time_le (gal_lgmet := gal_lgmet) (scatter := scatter) (y := y) ht ht0 hr hB hF he hZ hx hR h0' h0 hd hD' hD
  have e0 : 0 ≤ (4 * m + 13) * R * (1e9 * B * F * |t_obs' - t_obs|) / d := by positivity
  rw [abs_sub_comm t_obs t_obs'] at v
  have := C168_mag_relative (Om0 := Om0) (w0 := w0) (wa := wa) (h := h) hw hf hz e0 v u hpos
  exact this.1.trans this.2
end time

section history
variable {t₀ T t_obs gal_lgmet scatter : ℝ} {S : ℝ → ℝ} {g : Fin (m + 3) → ℝ} {y : Fin (k + 3) → ℝ}

/-- **Specification.** SED of a galaxy with star formation history `S` (from `t₀` on) and one metallicity distribution: mass formed, times the average of the
SSP spectra over the metallicity weights and the shares of mass born in each age bin -/
noncomputable def Sfh.sedFrom (S : ℝ → ℝ) (t₀ t_obs gal_lgmet scatter : ℝ) (y : Fin (k + 3) → ℝ) (g : Fin (m + 3) → ℝ) (flux : Fin (k + 3) → Fin (m + 3) → Fin w → ℝ) (l : Fin w) : ℝ :=
  let e := get_lg_age_bin_edges g
  Sfh.massFrom S t₀ t_obs * ∑ i, ∑ j, calc_lgmet_weights_from_lognormal_mdf gal_lgmet scatter y i *
    Sfh.shareFrom S t₀ t_obs (e j.castSucc) (e j.succ) (e 0) (e (Fin.last (m + 3))) * flux i j l

lemma share_prob (hS : ContinuousOn S (Icc t₀ T)) (hp : ∀ x ∈ Icc t₀ T, 0 ≤ S x) (hobs0 : 0.001 ≤ t_obs) (hobs : t_obs ≤ T) (he : Monotone (get_lg_age_bin_edges g))
    (hpos : Sfh.massFrom S t₀ (birthTime t_obs (get_lg_age_bin_edges g (Fin.last (m + 3)))) < Sfh.massFrom S t₀ (birthTime t_obs (get_lg_age_bin_edges g 0))) :
    IsProbVector fun j : Fin (m + 3) => Sfh.shareFrom S t₀ t_obs (get_lg_age_bin_edges g j.castSucc) (get_lg_age_bin_edges g j.succ) (get_lg_age_bin_edges g 0)
      (get_lg_age_bin_edges g (Fin.last (m + 3))) := by
  constructor
  · intro j
    exact div_nonneg (sub_nonneg.mpr (massFrom_mono hS hp (birthTime_anti _ (he (Fin.castSucc_lt_succ (i := j)).le)) (birth_mem hobs0 hobs).2)) (sub_pos.mpr hpos).le
  · unfold Sfh.shareFrom
    rw [← Finset.sum_div, sum_telescope' (fun i => Sfh.massFrom S t₀ (birthTime t_obs (get_lg_age_bin_edges g i)))]
    exact div_self (sub_pos.mpr hpos).ne'

/-- C168: **magnitudes are second-order accurate in the time steps of the star formation history**: halving the steps of the table divides the error of the magnitude by
four, with one constant for all filters, redshifts and cosmologies. -/
theorem C168_history {wave : Fin (w + 2) → ℝ} {flux : Fin (k + 3) → Fin (m + 3) → Fin (w + 2) → ℝ} (h0 : 0.001 < t₀) (hT : t₀ < T) (hS : ContDiffOn ℝ 2 S (Icc t₀ T))
    (hp : ∀ x ∈ Icc t₀ T, 1e-14 ≤ S x) (hobs0 : 0.001 ≤ t_obs) (hobs : t_obs ≤ T) (he : Monotone (get_lg_age_bin_edges g))
    (hpos : Sfh.massFrom S t₀ (birthTime t_obs (get_lg_age_bin_edges g (Fin.last (m + 3)))) < Sfh.massFrom S t₀ (birthTime t_obs (get_lg_age_bin_edges g 0)))
    (hZ : IsProbVector (calc_lgmet_weights_from_lognormal_mdf gal_lgmet scatter y)) (hx : ∀ i j l, 0 < flux i j l) (hw : Monotone wave) :
    ∃ C δ₀, 0 < δ₀ ∧ ∀ [Dtype], ∀ δ ≤ δ₀, ∀ t ∈ Sfh.Table t₀ T δ, ∀ {q : ℕ} (fw ft : Fin (q + 1) → ℝ) (z Om0 w0 wa h : ℝ), GoodFilter fw ft → -1 < z →
      0 < obs_flux_ssp wave (Sfh.sedFrom S t₀ t_obs gal_lgmet scatter y g flux) fw ft z / flux_ab0_at_10pc fw ft →
      |calc_obs_mag wave (calc_rest_sed_sfh_table_lognormal_mdf t.2 (fun i => S (t.2 i)) gal_lgmet scatter y g flux t_obs).rest_sed fw ft z Om0 w0 wa h -
        calc_obs_mag wave (Sfh.sedFrom S t₀ t_obs gal_lgmet scatter y g flux) fw ft z Om0 w0 wa h| ≤ C * δ ^ 2 := by
  have hpp : ∀ x ∈ Icc t₀ T, 0 ≤ S x := fun x hx => le_trans (by norm_num) (hp x hx)
  have hl : ∀ l : Fin (w + 2), ∃ C δ₀, 0 < δ₀ ∧ ∀ [Dtype], ∀ δ ≤ δ₀, ∀ t ∈ Sfh.Table t₀ T δ,
      |(calc_rest_sed_sfh_table_lognormal_mdf t.2 (fun i => S (t.2 i)) gal_lgmet scatter y g flux t_obs).rest_sed l - Sfh.sedFrom S t₀ t_obs gal_lgmet scatter y g flux l| ≤ C * δ ^ 2 :=
    fun l => C166_sed (sfr_min := SFR_MIN) floor_pos h0 hT hS (fun x hx => ⟨hp x hx, hp x hx⟩) hobs0 hobs he hpos hZ.2 l
  choose C d hd hC using hl
  set X := Sfh.sedFrom S t₀ t_obs gal_lgmet scatter y g flux with hX
  have hm : 0 < Sfh.massFrom S t₀ t_obs := by
    have h1 := massFrom_mono hS.continuousOn hpp (birth_mem (a := get_lg_age_bin_edges g 0) hobs0 le_rfl).2 hobs
    refine lt_of_le_of_lt ?_ (hpos.trans_le h1)
    have hc := hp t₀ ⟨le_rfl, hT.le⟩
    have h2 := massFrom_mono hS.continuousOn hpp (min_le_right t₀ (birthTime t_obs (get_lg_age_bin_edges g (Fin.last (m + 3))))) (birth_mem hobs0 hobs).2
    refine le_trans ?_ h2
    rw [massFrom_of_le (min_le_left _ _)]
    have : 0 ≤ (t₀ - 0.001) * (1e-14 + S t₀) := mul_nonneg (by linarith) (by linarith [hpp t₀ ⟨le_rfl, hT.le⟩])
    positivity
  have hXp : ∀ l, 0 < X l := by
    intro l
    obtain ⟨p, -, hpm⟩ := Finset.exists_min_image (Finset.univ : Finset (Fin (k + 3) × Fin (m + 3))) (fun p => flux p.1 p.2 l) ⟨(0, 0), Finset.mem_univ _⟩
    have := le_avg (X := fun i j => flux i j l) hZ (share_prob hS.continuousOn hpp hobs0 hobs he hpos) (c := flux p.1 p.2 l) (fun i j => hpm (i, j) (Finset.mem_univ _))
    exact mul_pos hm ((hx p.1 p.2 l).trans_le this)
  obtain ⟨l₀, -, hl₀⟩ := Finset.exists_min_image (Finset.univ : Finset (Fin (w + 2))) X ⟨0, Finset.mem_univ _⟩
  obtain ⟨l₁, -, hl₁⟩ := Finset.exists_min_image (Finset.univ : Finset (Fin (w + 2))) d ⟨0, Finset.mem_univ _⟩
  set K := ∑ l, |C l| with hK
  have hK0 : 0 ≤ K := Finset.sum_nonneg fun _ _ => abs_nonneg _
  have hCK : ∀ l, C l ≤ K := fun l => (le_abs_self _).trans (Finset.single_le_sum (f := fun l => |C l|) (fun _ _ => abs_nonneg _) (Finset.mem_univ l))
  set x₀ := X l₀ with hx0
  have hx0p : 0 < x₀ := hXp l₀
  refine ⟨1.09 * (2 * K / x₀), min (d l₁) (min 1 (x₀ / (2 * (K + 1)))), lt_min (hd l₁) (lt_min one_pos (by positivity)), fun [Dtype] δ hδ t ht {q} fw ft z Om0 w0 wa h hf hz hF => ?_⟩
  have hδ0 : 0 ≤ δ := by
    have := ht.2.2.2.1 0
    have h3 := ht.1 (Fin.castSucc_lt_succ (i := (0 : Fin (t.1 + 1))))
    linarith
  have k1 : δ ≤ 1 := hδ.trans ((min_le_right _ _).trans (min_le_left _ _))
  have k2 : δ ≤ x₀ / (2 * (K + 1)) := hδ.trans ((min_le_right _ _).trans (min_le_right _ _))
  rw [le_div_iff₀ (by positivity)] at k2
  have hsq : K * δ ^ 2 ≤ x₀ / 2 := by nlinarith [mul_nonneg hK0 hδ0]
  set G := (calc_rest_sed_sfh_table_lognormal_mdf t.2 (fun i => S (t.2 i)) gal_lgmet scatter y g flux t_obs).rest_sed with hG
  have hb : ∀ l, |G l - X l| ≤ K * δ ^ 2 := fun l =>
    (hC l δ (hδ.trans ((min_le_left _ _).trans (hl₁ l (Finset.mem_univ _)))) t ht).trans (mul_le_mul_of_nonneg_right (hCK l) (sq_nonneg _))
  have e0 : 0 ≤ 2 * K / x₀ * δ ^ 2 := by positivity
  have key : 2 * K / x₀ * δ ^ 2 * (x₀ / 2) = K * δ ^ 2 := by field_simp
  have up : ∀ l, X l ≤ (1 + 2 * K / x₀ * δ ^ 2) * G l := by
    intro l
    have h1 := abs_le.mp (hb l)
    have h2 := hl₀ l (Finset.mem_univ _)
    have h3 : x₀ / 2 ≤ G l := by linarith [h1.1]
    have := mul_le_mul_of_nonneg_left h3 e0
    linarith [h1.1]
  have dn : ∀ l, G l ≤ (1 + 2 * K / x₀ * δ ^ 2) * X l := by
    intro l
    have h1 := abs_le.mp (hb l)
    have h2 := hl₀ l (Finset.mem_univ _)
    have h3 : x₀ / 2 ≤ X l := by linarith
    have := mul_le_mul_of_nonneg_left h3 e0
    linarith [h1.2]
  have := C168_mag_relative (Om0 := Om0) (w0 := w0) (wa := wa) (h := h) hw hf hz e0 up dn hF
  exact (this.1.trans this.2).trans_eq (by ring)
end history

section
attribute [local instance] Dtype.float64

/-- every positive spectrum is detected in the filter of the cases -/
lemma case_detected {f : Fin 3 → ℝ} (h : ∀ i, 0 < f i) : 0 < obs_flux_ssp (n := 1) (m := 2) caseWave f caseFW caseFT (1 / 2) / flux_ab0_at_10pc caseFW caseFT := by
  obtain ⟨i₀, -, hi⟩ := Finset.exists_min_image (Finset.univ : Finset (Fin 3)) f ⟨0, Finset.mem_univ _⟩
  have h1 := obs_flux_mono (n := 1) (m := 2) caseWave_mono.monotone case_good (z := 1 / 2) (by norm_num) (f := fun i => f i₀ / 3 * caseLum i) (g := f)
    (fun i => (le_trans (by
      have := h i₀
      fin_cases i <;> simp [caseLum] <;> linarith) (hi i (Finset.mem_univ _))))
  rw [obs_flux_smul] at h1
  refine lt_of_lt_of_le ?_ (div_le_div_of_nonneg_right h1 (ab0_nonneg case_good))
  rw [mul_div_assoc]
  exact mul_pos (div_pos (h i₀) (by norm_num)) case_obs_flux

lemma case_range (t_obs : ℝ) (h : 13 ≤ t_obs) (h2 : t_obs ≤ 14) : 0 < massInRange (n := 1) (m := 0) caseT caseS caseA t_obs := by
  refine (C17_total_mass_pos_iff (n := 1) (m := 0) caseT caseS caseA t_obs 1e-14 (by norm_num) caseT_mono caseT_zero caseT_resolved caseA_mono).2.mpr ⟨?_, ?_⟩
  · linarith [case_young]
  · have := Real.rpow_pos_of_pos (show (0:ℝ) < 10 by norm_num) (get_lg_age_bin_edges (m := 0) caseA (Fin.last 3))
    norm_num [caseT, Fin.last] at this ⊢
    linarith

lemma case_Zprob : IsProbVector (calc_lgmet_weights_from_lognormal_mdf (k := 2) (-2.6) 0.2 caseZ) := C21_lgmet_weights_prob_partial (k := 2) (-2.6) 0.2 (by norm_num) caseZ caseZ_edges

/-- case: a spectrum of unit luminosity is made 10 per cent brighter at one wavelength: at most 0.11 mag -/
example := C168_mag_relative (n := 1) (m := 2) (wave := caseWave) (f := fun _ => 1) (g := ![1, 1.1, 1]) (e := 0.1) (z := 1 / 2) (Om0 := 0.3) (w0 := -1) (wa := 0) (h := 0.7) caseWave_mono.monotone case_good
  (by norm_num) (by norm_num) (fun i => by fin_cases i <;> norm_num) (fun i => by fin_cases i <;> norm_num) (case_detected fun _ => one_pos)

/-- case: flat SSP spectra, observed at 13 and at 13.5 Gyr -/
example : ∃ C, |calc_obs_mag (n := 1) (m := 2) caseWave (calc_rest_sed_sfh_table_lognormal_mdf (n := 1) (k := 2) (m := 0) caseT caseS (-2.6) 0.2 caseZ caseA (fun _ _ _ => 1) 13.5).rest_sed caseFW caseFT (1 / 2) 0.3 (-1) 0 0.7 -
    calc_obs_mag (n := 1) (m := 2) caseWave (calc_rest_sed_sfh_table_lognormal_mdf (n := 1) (k := 2) (m := 0) caseT caseS (-2.6) 0.2 caseZ caseA (fun _ _ _ => 1) 13).rest_sed caseFW caseFT (1 / 2) 0.3 (-1) 0 0.7| ≤ C := by
  obtain ⟨F, hF⟩ : ∃ F, ∀ k : Fin 2, caseT k.succ ≤ F * caseT k.castSucc ∧
      1 + Real.log (tableMass (n := 1) caseT caseS 1e-14 k.succ / tableMass (n := 1) caseT caseS 1e-14 k.castSucc) ≤ F := by
    refine ⟨max 10 (max (1 + Real.log (tableMass (n := 1) caseT caseS 1e-14 (Fin.succ 0) / tableMass (n := 1) caseT caseS 1e-14 (Fin.castSucc 0)))
      (1 + Real.log (tableMass (n := 1) caseT caseS 1e-14 (Fin.succ 1) / tableMass (n := 1) caseT caseS 1e-14 (Fin.castSucc 1)))), fun k => ⟨?_, ?_⟩⟩
    · have hk : caseT k.succ = 10 * caseT k.castSucc := by simp [caseT, pow_succ]; ring
      rw [hk]
      exact mul_le_mul_of_nonneg_right (le_max_left _ _) (t_pos caseT_mono caseT_zero _).le
    · fin_cases k
      · exact (le_max_left _ _).trans (le_max_right _ _)
      · exact (le_max_right _ _).trans (le_max_right _ _)
  have r1 := case_range 13 (by norm_num) (by norm_num)
  have r2 := case_range 13.5 (by norm_num) (by norm_num)
  refine ⟨_, C168_observation_time (n := 1) (k := 2) (m := 0) (w := 1) (q := 2) (s := caseS) (a := caseA) (y := caseZ) (flux := fun _ _ _ => 1) (t_obs := 13) (t_obs' := 13.5) (gal_lgmet := -2.6) (scatter := 0.2)
    (B := 3) (F := F) (R := 1) (d := min (massInRange (n := 1) (m := 0) caseT caseS caseA 13) (massInRange (n := 1) (m := 0) caseT caseS caseA 13.5)) caseT_mono caseT_zero caseT_resolved
    (fun i => by fin_cases i <;> norm_num [caseS]) hF caseA_edges case_Zprob (fun _ _ _ => one_pos) (fun _ _ _ _ _ => by norm_num) (by norm_num) (by norm_num) (lt_min r1 r2) (min_le_left _ _) (min_le_right _ _)
    caseWave_mono.monotone case_good (by norm_num) (case_detected fun l => ?_)⟩
  beta_reduce
  rw [sed_value case_Zprob.2 (ages_prob caseT_mono caseT_zero caseA_edges r1).2]
  exact mul_pos (massFormed_pos _) (lt_of_lt_of_le one_pos (le_avg (X := fun _ _ => (1:ℝ)) case_Zprob (ages_prob caseT_mono caseT_zero caseA_edges r1) fun _ _ => le_rfl))
end

/-- case: a star formation rate rising linearly from 1 Gyr on, observed at 13 Gyr -/
example := C168_history (m := 0) (k := 2) (w := 1) (S := fun x => 1 + x) (t₀ := 1) (T := 13.8) (t_obs := 13) (g := caseA) (gal_lgmet := -2.6) (scatter := 0.2) (y := caseZ)
  (wave := caseWave) (flux := fun _ _ _ => 1) (by norm_num) (by norm_num) (by fun_prop) (fun x hx => by norm_num; linarith [hx.1]) (by norm_num) (by norm_num) caseA_edges case_from case_Zprob
  (fun _ _ _ => one_pos) caseWave_mono.monotone
end Dsps.Props
