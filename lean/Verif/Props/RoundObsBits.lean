import Verif.Props.RoundObs

/-! C118 in numbers: observed-frame magnitudes in single and double precision, and end to end from the galaxy model. -/
namespace Dsps.Props
open Jnp Fl Spec Dsps.Lemmas Dsps.Constants

variable {P A : Arith} {v ε : ℝ} {Om0 w0 wa h z : ℝ} {d dc : ℕ} {n m k p q : ℕ} [Dtype]

/-- An **ordinary spectrum and filter**: the conditions of C118 with luminosities that change by at most a factor 10 between neighbouring
wavelengths and have logarithmic slope at most 1000. -/
def OrdinarySpectrum (ε : ℝ) (ws ls : Fin (n + 2) → ℝ) (wv tr : Fin (m + 1) → ℝ) (z : ℝ) : Prop := ObsConditions ε 10 1000 ws ls wv tr z

lemma obs_numbers (M : Machine P A v ε) (hε : 0 < ε) (H : Ordinary Om0 w0 wa h z) (hdc : dc ≤ 511) (hd : d ≤ 1000) {η : ℝ} (hη0 : 0 ≤ η)
    (hη : 4079 * ε + 1.02 * η ≤ 0.0099) {ws ls ls0 : Fin (n + 2) → ℝ} {wv tr : Fin (m + 1) → ℝ} (C : OrdinarySpectrum ε ws ls0 wv tr z)
    (hls : ∀ i, |ls i - ls0 i| ≤ η * ls0 i) {r : ℝ} (hr : r ∈ Rounded.calc_obs_mag P A v d dc ws ls wv tr z Om0 w0 wa h) :
    |r - Photometry.calc_obs_mag ws ls0 wv tr z Om0 w0 wa h| ≤ 5871 * ε + 1.13 * η
      + 3.1 * ε * max 2.5 |Photometry.calc_obs_mag_no_dimming ws ls0 wv tr z| + 4.1 * ε * dimSize z Om0 w0 wa h := by
  have h6 := M.small
  have hd' : (d:ℝ) ≤ 1000 := by exact_mod_cast hd
  obtain ⟨c1, -⟩ := ordinary_costs H hdc
  have hc : obsFluxCost d 10 1000 (1.02 * (η / ε)) ≤ 4079 + 1.02 * (η / ε) := by unfold obsFluxCost restFluxCost; norm_num; linarith
  have hηe : η / ε * ε = η := div_mul_cancel₀ _ hε.ne'
  have hce : obsFluxCost d 10 1000 (1.02 * (η / ε)) * ε ≤ 4079 * ε + 1.02 * η := by
    have := mul_le_mul_of_nonneg_right hc hε.le
    refine this.trans (le_of_eq ?_)
    rw [add_mul, mul_assoc 1.02, hηe]
  have hdd : (distCost dc z w0 wa + 3) * ε ≤ 0.0099 := by
    have : (distCost dc z w0 wa + 3) * ε ≤ 628 * 1e-6 := mul_le_mul (by linarith) h6 hε.le (by norm_num)
    exact this.trans (by norm_num)
  have key := C118_obs_mag M H.om H.z_pos H.hubble C (div_nonneg hη0 hε.le) (fun i => by rw [hηe]; exact hls i) (hce.trans hη) hdd hr
  refine key.trans ?_
  have c1e := mul_le_mul_of_nonneg_right c1 hε.le
  generalize max 2.5 |Photometry.calc_obs_mag_no_dimming ws ls0 wv tr z| = a at *
  generalize dimSize z Om0 w0 wa h = b at *
  generalize obsFluxCost d 10 1000 (1.02 * (η / ε)) = F at *
  norm_num at hce c1e ⊢
  nlinarith

/-- C118 in double precision: an observed magnitude through a filter of at most 1000 points, for an ordinary cosmology, redshift at most 10, and an
ordinary spectrum known up to a fraction `η` (`η = 0` if the spectrum passed to the function is taken as exact). -/
theorem C118_float64 (B : Float64 P A v) (H : Ordinary Om0 w0 wa h z) (hdc : dc ≤ 511) (hd : d ≤ 1000) {η : ℝ} (hη0 : 0 ≤ η) (hη : η ≤ 0.0097)
    {ws ls ls0 : Fin (n + 2) → ℝ} {wv tr : Fin (m + 1) → ℝ} (C : OrdinarySpectrum (2 ^ (-50:ℤ)) ws ls0 wv tr z)
    (hls : ∀ i, |ls i - ls0 i| ≤ η * ls0 i) {r : ℝ} (hr : r ∈ Rounded.calc_obs_mag P A v d dc ws ls wv tr z Om0 w0 wa h) :
    |r - Photometry.calc_obs_mag ws ls0 wv tr z Om0 w0 wa h| ≤ 5.3e-12 + 1.13 * η
      + 2.8e-15 * max 2.5 |Photometry.calc_obs_mag_no_dimming ws ls0 wv tr z| + 3.7e-15 * dimSize z Om0 w0 wa h := by
  have key := obs_numbers B.machine (by positivity) H hdc hd hη0 (by norm_num at hη ⊢; linarith) C hls hr
  refine key.trans ?_
  have hb : 0 ≤ dimSize z Om0 w0 wa h := by unfold dimSize; positivity
  gcongr <;> norm_num

/-- C118 in single precision (JAX's default). -/
theorem C118_float32 (B : Float32 P A v) (H : Ordinary Om0 w0 wa h z) (hdc : dc ≤ 511) (hd : d ≤ 1000) {η : ℝ} (hη0 : 0 ≤ η) (hη : η ≤ 0.0058)
    {ws ls ls0 : Fin (n + 2) → ℝ} {wv tr : Fin (m + 1) → ℝ} (C : OrdinarySpectrum (2 ^ (-20:ℤ)) ws ls0 wv tr z)
    (hls : ∀ i, |ls i - ls0 i| ≤ η * ls0 i) {r : ℝ} (hr : r ∈ Rounded.calc_obs_mag P A v d dc ws ls wv tr z Om0 w0 wa h) :
    |r - Photometry.calc_obs_mag ws ls0 wv tr z Om0 w0 wa h| ≤ 5.6e-3 + 1.13 * η
      + 3e-6 * max 2.5 |Photometry.calc_obs_mag_no_dimming ws ls0 wv tr z| + 4e-6 * dimSize z Om0 w0 wa h := by
  have key := obs_numbers B.machine (by positivity) H hdc hd hη0 (by norm_num at hη ⊢; linarith) C hls hr
  refine key.trans ?_
  have hb : 0 ≤ dimSize z Om0 w0 wa h := by unfold dimSize; positivity
  gcongr <;> norm_num

/-! ### end to end -/

lemma obs_wave_pos {Q Λ : ℝ} {ws ls0 : Fin (n + 2) → ℝ} {wv tr : Fin (m + 1) → ℝ} (hε : 0 ≤ ε) (h6 : ε ≤ 1e-6)
    (C : ObsConditions ε Q Λ ws ls0 wv tr z) (j : Fin (n + 2)) : 0 < ws j := by
  have hzp : 0 < 1 + z := by linarith [C.z_gt]
  have he := Dtype.interpEps_nonneg
  have : 0 < ws j * (1 + z) := by
    induction j using Fin.induction with
    | zero => exact mul_pos C.wave_pos hzp
    | succ i ih =>
      have h := C.gaps i
      by_contra hc
      push Not at hc
      have h2 : (ws i.succ * (1 + z) - ws i.castSucc * (1 + z)) * (1 - ε) ≤ (ws i.succ * (1 + z)) * (1 - ε) := by
        apply mul_le_mul_of_nonneg_right _ (by norm_num at h6; linarith); linarith
      have h3 : (ws i.succ * (1 + z)) * (1 - 6 * ε) ≤ 0 := mul_nonpos_of_nonpos_of_nonneg hc (by norm_num at h6; linarith)
      linarith
  exact pos_of_mul_pos_left this hzp.le

/-- a mixture of spectra, each of which meets the conditions, meets them -/
lemma mixture_conditions {Q Λ M : ℝ} (hε : 0 ≤ ε) (h6 : ε ≤ 1e-6) (hM : 0 < M) {ws : Fin (p + 2) → ℝ}
    {flux : Fin (k + 1) → Fin (m + 1) → Fin (p + 2) → ℝ} {wv tr : Fin (q + 1) → ℝ} (C : ∀ i j, ObsConditions ε Q Λ ws (flux i j) wv tr z)
    {W : Fin (k + 1) → Fin (m + 1) → ℝ} (hW : IsProbMatrix W) {sed : Fin (p + 2) → ℝ} (hsed : ∀ l, sed l = M * ∑ i, ∑ j, W i j * flux i j l) :
    ObsConditions ε Q Λ ws sed wv tr z := by
  have C0 := C 0 0
  have hQ0 := contrast_pos C0.contrast C0.lum_pos
  have pos : ∀ l, 0 < sed l := fun l => by
    rw [hsed]
    refine mul_pos hM ?_
    obtain ⟨i, -, hi⟩ : ∃ i ∈ Finset.univ, 0 < ∑ j, W i j := by
      by_contra hc; push Not at hc
      have := Finset.sum_nonpos hc
      linarith [hW.2]
    obtain ⟨j, -, hj⟩ : ∃ j ∈ Finset.univ, 0 < W i j := by
      by_contra hc; push Not at hc
      have := Finset.sum_nonpos hc
      linarith
    have nn : ∀ i j, 0 ≤ W i j * flux i j l := fun i j => mul_nonneg (hW.1 i j) ((C i j).lum_pos l).le
    refine Finset.sum_pos' (fun i _ => Finset.sum_nonneg fun j _ => nn i j) ⟨i, Finset.mem_univ _, ?_⟩
    exact Finset.sum_pos' (fun j _ => nn i j) ⟨j, Finset.mem_univ _, mul_pos hj ((C i j).lum_pos l)⟩
  have mono : ∀ l l', (∀ i j, flux i j l ≤ Q * flux i j l') → sed l ≤ Q * sed l' := fun l l' hl => by
    rw [hsed, hsed, mul_left_comm]
    refine mul_le_mul_of_nonneg_left ?_ hM.le
    rw [Finset.mul_sum]
    refine Finset.sum_le_sum fun i _ => ?_
    rw [Finset.mul_sum]
    refine Finset.sum_le_sum fun j _ => ?_
    have := mul_le_mul_of_nonneg_left (hl i j) (hW.1 i j)
    linarith
  refine ⟨C0.z_gt, C0.wave_pos, C0.gaps, pos, fun i => ⟨mono _ _ fun a b => ((C a b).contrast i).1, mono _ _ fun a b => ((C a b).contrast i).2⟩,
    C0.slope_ge, fun i j hj => ?_, C0.filter, C0.live, C0.covered⟩
  have hx := (obs_wave_pos hε h6 C0 j).le
  have e1 : sed i.succ - sed i.castSucc = M * ∑ a, ∑ b, W a b * (flux a b i.succ - flux a b i.castSucc) := by
    rw [hsed, hsed, ← mul_sub, ← Finset.sum_sub_distrib]
    congr 1
    refine Finset.sum_congr rfl fun a _ => ?_
    rw [← Finset.sum_sub_distrib]
    exact Finset.sum_congr rfl fun b _ => by ring
  have e2 : |∑ a, ∑ b, W a b * (flux a b i.succ - flux a b i.castSucc)| ≤ ∑ a, ∑ b, W a b * |flux a b i.succ - flux a b i.castSucc| := by
    refine (Finset.abs_sum_le_sum_abs _ _).trans (Finset.sum_le_sum fun a _ => ?_)
    refine (Finset.abs_sum_le_sum_abs _ _).trans (Finset.sum_le_sum fun b _ => ?_)
    rw [abs_mul, abs_of_nonneg (hW.1 a b)]
  have e3 : (∑ a, ∑ b, W a b * |flux a b i.succ - flux a b i.castSucc|) * ws j
      ≤ Λ * (ws i.succ - ws i.castSucc) * ∑ a, ∑ b, W a b * flux a b j := by
    rw [Finset.sum_mul, Finset.mul_sum]
    refine Finset.sum_le_sum fun a _ => ?_
    rw [Finset.sum_mul, Finset.mul_sum]
    refine Finset.sum_le_sum fun b _ => ?_
    have := mul_le_mul_of_nonneg_left ((C a b).slope i j hj) (hW.1 a b)
    linarith
  rw [e1, abs_mul, abs_of_pos hM, hsed]
  have e4 := mul_le_mul_of_nonneg_left ((mul_le_mul_of_nonneg_right e2 hx).trans e3) hM.le
  linarith

section
variable {t s : Fin (n + 2) → ℝ} {sfr_min : ℝ}

/-- **Conditions on the SSP library for observed magnitudes in double precision**: every SSP is an ordinary spectrum, and at each wavelength the
fluxes of the SSPs differ at most by a factor `R ≤ 700`. -/
structure ObsLibrary (flux : Fin (k + 3) → Fin (m + 3) → Fin (p + 2) → ℝ) (R : ℝ) (ws : Fin (p + 2) → ℝ) (wv tr : Fin (q + 1) → ℝ) (z : ℝ) : Prop where
  spectra : ∀ i j, OrdinarySpectrum (2 ^ (-50:ℤ)) ws (flux i j) wv tr z
  contrast : R ≤ 700
  range : ∃ lo : Fin (p + 2) → ℝ, (∀ l, 0 < lo l) ∧ ∀ i j l, lo l ≤ flux i j l ∧ flux i j l ≤ R * lo l

lemma obs_mag_of_sed (B : Float64 P A v) (H : Ordinary Om0 w0 wa h z) (hdc : dc ≤ 511) (hd : d ≤ 1000)
    {flux : Fin (k + 3) → Fin (m + 3) → Fin (p + 2) → ℝ} {R : ℝ} {ws : Fin (p + 2) → ℝ} {wv tr : Fin (q + 1) → ℝ} (L : ObsLibrary flux R ws wv tr z)
    {M : ℝ} (hM : 0 < M) {W : Fin (k + 3) → Fin (m + 3) → ℝ} (hW : IsProbMatrix W) {sed sed0 : Fin (p + 2) → ℝ}
    (hsed : ∀ l, sed0 l = M * ∑ i, ∑ j, W i j * flux i j l)
    (herr : ∀ l F, (∀ i j, |flux i j l| ≤ F) → |sed l - sed0 l| ≤ 1.3e-5 * (F * M)) {r : ℝ}
    (hr : r ∈ Rounded.calc_obs_mag P A v d dc ws sed wv tr z Om0 w0 wa h) :
    |r - Photometry.calc_obs_mag ws sed0 wv tr z Om0 w0 wa h| ≤ 5.3e-12 + 1.5e-5 * R
      + 2.8e-15 * max 2.5 |Photometry.calc_obs_mag_no_dimming ws sed0 wv tr z| + 3.7e-15 * dimSize z Om0 w0 wa h := by
  obtain ⟨lo, hlo0, hflux⟩ := L.range
  have hR := L.contrast
  have hR1 : 1 ≤ R := by
    have h1 := (hflux 0 0 0).1.trans (hflux 0 0 0).2
    have h2 := hlo0 0
    by_contra hc; push Not at hc; nlinarith
  have C := mixture_conditions (by positivity) (by norm_num) hM L.spectra hW hsed
  have hrel : ∀ l, |sed l - sed0 l| ≤ (1.3e-5 * R) * sed0 l := fun l => by
    have h1 := herr l (R * lo l) (fun i j => by rw [abs_of_nonneg ((hlo0 l).le.trans (hflux i j l).1)]; exact (hflux i j l).2)
    have h3 : M * lo l ≤ sed0 l := by
      rw [hsed]
      exact mul_le_mul_of_nonneg_left (weighted_mean_bounds W (fun i j => flux i j l) hW (lo l) (R * lo l) (fun i j => (hflux i j l).1)
        (fun i j => (hflux i j l).2)).1 hM.le
    have h2 := mul_le_mul_of_nonneg_left h3 (show 0 ≤ R by linarith)
    norm_num at h1 ⊢
    linarith
  have key := C118_float64 B H hdc hd (η := 1.3e-5 * R) (by positivity) (by norm_num; linarith) C hrel hr
  refine key.trans ?_
  have hb : 0 ≤ dimSize z Om0 w0 wa h := by unfold dimSize; positivity
  norm_num; linarith

/-- C118: **end to end, double precision**: from star formation history, metallicity and cosmology to the observed magnitude.  The SED is computed by
`calc_rest_sed_sfh_table_lognormal_mdf` and passed to `calc_obs_mag`, everything in machine arithmetic with sums in any order. -/
theorem C118_obs_mag_lognormal {a : Fin (m + 3) → ℝ} {t_obs : ℝ} (h' : Float64Sfh A v t s a t_obs sfr_min) {lgmet σ : ℝ} (hP : P.u ≤ 2 ^ (-53:ℤ))
    {zg : Fin (k + 3) → ℝ} (hσ : 0.01 ≤ σ) (hz : ∀ i, |zg i| ≤ 10) (hk : k + 3 ≤ 100) (he : Monotone (Utils.get_bin_edges zg (-10) 10))
    (hlo : -10 ≤ lgmet - 3 * σ) (hhi : lgmet + 3 * σ ≤ 10) (H : Ordinary Om0 w0 wa h z) {flux : Fin (k + 3) → Fin (m + 3) → Fin (p + 2) → ℝ} {R : ℝ}
    {ws : Fin (p + 2) → ℝ} {wv tr : Fin (q + 1) → ℝ} (L : ObsLibrary flux R ws wv tr z) {D : Rounded.Depths} (hd1 : D.met ≤ 1000)
    (hd2 : D.age ≤ 1000) (hd3 : D.joint ≤ 10000) (hd4 : D.sed ≤ 9999) (hd : d ≤ 1000) (hdc : dc ≤ 511) {sed : Fin (p + 2) → ℝ}
    (ho : sed ∈ Rounded.calc_rest_sed_sfh_table_lognormal_mdf A v D t s lgmet σ zg a flux t_obs sfr_min) {r : ℝ}
    (hr : r ∈ Rounded.calc_obs_mag P A v d dc ws sed wv tr z Om0 w0 wa h) :
    let sed0 := (SspWeights.calc_rest_sed_sfh_table_lognormal_mdf t s lgmet σ zg a flux t_obs sfr_min).rest_sed
    |r - Photometry.calc_obs_mag ws sed0 wv tr z Om0 w0 wa h| ≤ 5.3e-12 + 1.5e-5 * R
      + 2.8e-15 * max 2.5 |Photometry.calc_obs_mag_no_dimming ws sed0 wv tr z| + 3.7e-15 * dimSize z Om0 w0 wa h := by
  intro sed0
  obtain ⟨_, _, _, _, hc⟩ := h'.weights
  have hσ0 : 0 < σ := lt_of_lt_of_le (by norm_num) hσ
  have hM : 0 < massFormed t s sfr_min t_obs := massFormed_pos _
  have e : SspWeights.mstar_obs t s t_obs sfr_min = massFormed t s sfr_min t_obs := by rw [massFormed_eq]; rfl
  have hW := (C23_joint_weights_lognormal t s lgmet σ zg a t_obs h'.age_prob (C21_lgmet_weights_prob_partial lgmet σ hσ0 zg he)).2.2.2.1
  refine obs_mag_of_sed ⟨hP, h'.u_le, hc.v_nonneg, h'.v_le⟩ H hdc hd L hM hW
    (fun l => (C25_sed_formula t s (fun _ => 0) lgmet σ zg a flux t_obs sfr_min l).1) (fun l F hF => ?_) hr
  rw [← e]
  exact C114_sed_lognormal_float64 h' hσ hz hk he hlo hhi hd1 hd2 hd3 hd4 ho l hF

/-- C118: the same for a tabulated metallicity history. -/
theorem C118_obs_mag_met_table {a : Fin (m + 3) → ℝ} {t_obs : ℝ} (h' : Float64Sfh A v t s a t_obs sfr_min) {σ Lz Z : ℝ} (hP : P.u ≤ 2 ^ (-53:ℤ))
    {zt : Fin (n + 2) → ℝ} (hL0 : 0 ≤ Lz) (hL : Lz ≤ 2)
    (hslope : ∀ i : Fin (n + 1), |zt i.succ - zt i.castSucc| ≤ Lz * (Real.logb 10 (t i.succ) - Real.logb 10 (t i.castSucc)))
    {zg : Fin (k + 3) → ℝ} (hσ : 0.05 ≤ σ) (hZ : ∀ i, |zt i| ≤ Z) (hwin : Z + 3 * σ ≤ 10) (hz : ∀ i, |zg i| ≤ 10) (hk : k + 3 ≤ 50)
    (he : Monotone (Utils.get_bin_edges zg (-10) 10)) (H : Ordinary Om0 w0 wa h z) {flux : Fin (k + 3) → Fin (m + 3) → Fin (p + 2) → ℝ} {R : ℝ}
    {ws : Fin (p + 2) → ℝ} {wv tr : Fin (q + 1) → ℝ} (L : ObsLibrary flux R ws wv tr z) {D : Rounded.Depths} (hd1 : D.met ≤ 1000)
    (hd2 : D.age ≤ 1000) (hd3 : D.joint ≤ 10000) (hd4 : D.sed ≤ 9999) (hd : d ≤ 1000) (hdc : dc ≤ 511) {sed : Fin (p + 2) → ℝ}
    (ho : sed ∈ Rounded.calc_rest_sed_sfh_table_met_table A v D t s zt σ zg a flux t_obs sfr_min) {r : ℝ}
    (hr : r ∈ Rounded.calc_obs_mag P A v d dc ws sed wv tr z Om0 w0 wa h) :
    let sed0 := (SspWeights.calc_rest_sed_sfh_table_met_table t s zt σ zg a flux t_obs sfr_min).rest_sed
    |r - Photometry.calc_obs_mag ws sed0 wv tr z Om0 w0 wa h| ≤ 5.3e-12 + 1.5e-5 * R
      + 2.8e-15 * max 2.5 |Photometry.calc_obs_mag_no_dimming ws sed0 wv tr z| + 3.7e-15 * dimSize z Om0 w0 wa h := by
  intro sed0
  obtain ⟨_, _, _, _, hc⟩ := h'.weights
  have hσ0 : 0 < σ := lt_of_lt_of_le (by norm_num) hσ
  have hM : 0 < massFormed t s sfr_min t_obs := massFormed_pos _
  have e : SspWeights.mstar_obs t s t_obs sfr_min = massFormed t s sfr_min t_obs := by rw [massFormed_eq]; rfl
  have hW := (C24_joint_weights_met_table t s zt σ hσ0 zg a t_obs he h'.age_prob).2.1
  refine obs_mag_of_sed ⟨hP, h'.u_le, hc.v_nonneg, h'.v_le⟩ H hdc hd L hM hW
    (fun l => (C25_sed_formula t s zt 0 σ zg a flux t_obs sfr_min l).2) (fun l F hF => ?_) hr
  rw [← e]
  exact C114_sed_met_table_float64 h' hL0 hL hslope hσ hZ hwin hz hk he hd1 hd2 hd3 hd4 ho l hF

end

/-! ### The hypotheses are met, and results exist -/

lemma lit_nonempty (hP : ∀ x, (P.rnd x).Nonempty) (hA : ∀ x, (A.rnd x).Nonempty) (x : ℝ) : (Rounded.lit P A x).Nonempty :=
  ⟨_, _, (hP x).some_mem, (hA _).some_mem⟩

/-- The machine programs have results: the theorems above are not about empty sets. -/
theorem C118_results_exist (M : Machine P A v ε) (hA : ∀ x, (A.rnd x).Nonempty) (hP : ∀ x, (P.rnd x).Nonempty) (hz : 0 ≤ z) (hd : m ≤ d)
    (hdc : 511 ≤ dc) (ws ls : Fin (n + 2) → ℝ) (wv tr : Fin (m + 1) → ℝ) :
    (Rounded.calc_obs_mag P A v d dc ws ls wv tr z Om0 w0 wa h).Nonempty ∧ (Rounded.calc_rest_mag' P A v d ws ls wv tr).Nonempty := by
  have hlog : ∀ x, (Rounded.log10 v x).Nonempty := log10_nonempty M.lib_nonneg
  have hab : (Rounded.flux_ab0 P A d wv tr).Nonempty :=
    ⟨_, _, (lit_nonempty hP hA _).some_mem, (filter_flux_nonempty hA wv tr (fun _ => _) hd).some_mem⟩
  have hobs : (Rounded.obs_flux_ssp A d ws ls wv tr z).Nonempty :=
    ⟨_, _, (hA _).some_mem, _, (vec_nonempty fun j => hA _).some_mem, _, (vec_nonempty fun i => interp0_nonempty hA (wv i) _ ls).some_mem,
      (filter_flux_nonempty hA wv tr _ hd).some_mem⟩
  have hrest : (Rounded.rest_flux_ssp A d ws ls wv tr).Nonempty :=
    ⟨_, _, (vec_nonempty fun i => interp0_nonempty hA (wv i) ws ls).some_mem, (filter_flux_nonempty hA wv tr _ hd).some_mem⟩
  have hdm := (C117_results_exist (d := dc) (Om0 := Om0) (w0 := w0) (wa := wa) (h := h) M hA hP hz hdc).1
  exact ⟨⟨_, _, ⟨_, hobs.some_mem, _, hab.some_mem, _, (hA _).some_mem, _, (hlog _).some_mem, (hA _).some_mem⟩,
    _, ⟨_, hdm.some_mem, _, (hA _).some_mem, _, (hlog _).some_mem, _, (hA _).some_mem, (hA _).some_mem⟩, (hA _).some_mem⟩,
    ⟨_, _, ⟨_, hrest.some_mem, _, hab.some_mem, (hA _).some_mem⟩, _, (hlog _).some_mem, (hA _).some_mem⟩⟩

/-- three wavelengths and a four-point filter, redshift 2 -/
lemma obsCondEx (c : ℝ) (hc : 0 < c) (e : ℝ) (he0 : 0 ≤ e) (he : e ≤ 1e-6) (hi : Dtype.interpEps ≤ 1) :
    OrdinarySpectrum e ![1000, 5000, 10000] ![c, 2 * c, 1.5 * c] ![4000, 5000, 6000, 7000] ![0, 1, 1, 0] 2 := by
  refine ⟨by norm_num, by simp, ?_, ?_, ?_, by norm_num, ?_, ⟨?_, ?_, ?_⟩, ?_, ?_⟩
  · intro i; fin_cases i <;> simp <;> norm_num at he ⊢ <;> linarith
  · intro i; fin_cases i <;> simp [hc]; norm_num
  · intro i; fin_cases i <;> simp <;> norm_num <;> constructor <;> linarith
  · intro i j hj
    have e1 : |2 * c - c| = c := by rw [show 2 * c - c = c by ring, abs_of_pos hc]
    have e2 : |1.5 * c - 2 * c| = 0.5 * c := by rw [show 1.5 * c - 2 * c = -(0.5 * c) by ring, abs_neg, abs_of_pos (by positivity)]
    fin_cases i <;> rcases hj with rfl | rfl <;> simp [e1, e2] <;> norm_num <;> linarith
  · rw [Fin.monotone_iff_le_succ]; intro i; fin_cases i <;> simp <;> norm_num
  · intro i; fin_cases i <;> simp
  · intro i; fin_cases i <;> simp
  · simp only [Photometry.flux_ab0_at_10pc, Photometry.AB0]
    rw [trapz_eq]; simp [Fin.sum_univ_succ]; norm_num
  · intro i; fin_cases i <;> simp <;> norm_num at he ⊢ <;> constructor <;> linarith

/-- the single-precision bound applies to a concrete machine computation: PLANCK15, redshift 2 -/
example : letI := Dtype.float32
    ∃ r ∈ Rounded.calc_obs_mag f64 (binary 24 (by norm_num)) (2 ^ (-20:ℤ)) 3 511 ![1000, 5000, 10000] ![7, 2 * 7, 1.5 * 7] ![4000, 5000, 6000, 7000]
      ![0, 1, 1, 0] 2 0.3075 (-1.0) 0.0 0.6774,
    |r - Photometry.calc_obs_mag ![1000, 5000, 10000] ![7, 2 * 7, 1.5 * 7] ![4000, 5000, 6000, 7000] ![0, 1, 1, 0] 2 0.3075 (-1.0) 0.0 0.6774| ≤ 5.6e-3
      + 1.13 * 0 + 3e-6 * max 2.5 |Photometry.calc_obs_mag_no_dimming ![1000, 5000, 10000] ![7, 2 * 7, 1.5 * 7] ![4000, 5000, 6000, 7000] ![0, 1, 1, 0] 2|
      + 4e-6 * dimSize 2 0.3075 (-1.0) 0.0 0.6774 := by
  letI := Dtype.float32
  obtain ⟨r, hr⟩ := (C118_results_exist (d := 3) (dc := 511) (n := 1) (m := 3) (z := 2) (Om0 := 0.3075) (w0 := -1.0) (wa := 0.0) (h := 0.6774)
    float32_ieee.machine (binary_nonempty 24 _) (binary_nonempty 53 _) (by norm_num) le_rfl le_rfl ![1000, 5000, 10000] ![7, 2 * 7, 1.5 * 7]
    ![4000, 5000, 6000, 7000] ![0, 1, 1, 0]).1
  refine ⟨r, hr, C118_float32 float32_ieee ordinary_planck15 le_rfl (by norm_num) le_rfl (by norm_num)
    (obsCondEx 7 (by norm_num) _ (by positivity) (by norm_num) (show (2:ℝ)⁻¹ ^ 46 ≤ 1 by norm_num)) (fun i => by simp) hr⟩

/-- the end-to-end theorem applies to a concrete machine computation -/
example : letI := Dtype.float64
    let flux : Fin 3 → Fin 3 → Fin 3 → ℝ := fun i j => ![1 + (i * j : ℕ) / 4, 2 * (1 + (i * j : ℕ) / 4), 1.5 * (1 + (i * j : ℕ) / 4)]
    let sed0 := (SspWeights.calc_rest_sed_sfh_table_lognormal_mdf tEx (fun _ => 1) (-1.1) 0.2 zGrid aEx flux 10 1e-14).rest_sed
    ∃ (sed : Fin 3 → ℝ) (r : ℝ),
      sed ∈ Rounded.calc_rest_sed_sfh_table_lognormal_mdf f64 (2 ^ (-50:ℤ)) ⟨3, 3, 9, 9⟩ tEx (fun _ => 1) (-1.1) 0.2 zGrid aEx flux 10 1e-14 ∧
      r ∈ Rounded.calc_obs_mag f64 f64 (2 ^ (-50:ℤ)) 3 511 ![1000, 5000, 10000] sed ![4000, 5000, 6000, 7000] ![0, 1, 1, 0] 2 0.3075 (-1.0) 0.0 0.6774 ∧
      |r - Photometry.calc_obs_mag ![1000, 5000, 10000] sed0 ![4000, 5000, 6000, 7000] ![0, 1, 1, 0] 2 0.3075 (-1.0) 0.0 0.6774| ≤ 5.3e-12 + 1.5e-5 * 2
        + 2.8e-15 * max 2.5 |Photometry.calc_obs_mag_no_dimming ![1000, 5000, 10000] sed0 ![4000, 5000, 6000, 7000] ![0, 1, 1, 0] 2|
        + 3.7e-15 * dimSize 2 0.3075 (-1.0) 0.0 0.6774 := by
  letI := Dtype.float64
  intro flux sed0
  have hA := binary_nonempty 53 (by norm_num)
  have hv : (0:ℝ) ≤ 2 ^ (-50:ℤ) := by positivity
  have hz : ∀ i, |zGrid i| ≤ 10 := fun i => (zGrid_le i).trans (by norm_num)
  have hp : ∀ i j : Fin 3, (0:ℝ) ≤ ((i * j : ℕ):ℝ) / 4 := fun i j => by positivity
  have hL : ObsLibrary (k := 0) (m := 0) (p := 1) (q := 3) flux 2 ![1000, 5000, 10000] ![4000, 5000, 6000, 7000] ![0, 1, 1, 0] 2 := by
    refine ⟨fun i j => obsCondEx _ (by have := hp i j; linarith) _ (by positivity) (by norm_num) (show (2:ℝ)⁻¹ ^ 104 ≤ 1 by norm_num), by norm_num,
      ![1, 2, 1.5], ?_, ?_⟩
    · intro l; fin_cases l <;> simp; norm_num
    · intro i j l; fin_cases i <;> fin_cases j <;> fin_cases l <;> simp [flux] <;> norm_num
  obtain ⟨o, ho⟩ := sed_lognormal_nonempty (A := f64) (v := 2 ^ (-50:ℤ)) (k := 0) (m := 0) (n := 0) hA hv (d := ⟨3, 3, 9, 9⟩) (by norm_num)
    (by norm_num) (by norm_num) (by norm_num) tEx (fun _ => 1) (-1.1) 0.2 zGrid aEx flux 10 1e-14
  obtain ⟨r, hr⟩ := (C118_results_exist (d := 3) (dc := 511) (n := 1) (m := 3) (z := 2) (Om0 := 0.3075) (w0 := -1.0) (wa := 0.0) (h := 0.6774)
    float64_ieee.machine hA hA (by norm_num) le_rfl le_rfl ![1000, 5000, 10000] o ![4000, 5000, 6000, 7000] ![0, 1, 1, 0]).1
  exact ⟨o, r, ho, hr, C118_obs_mag_lognormal float64SfhEx float64_ieee.1 (by norm_num) hz (by norm_num) zGrid_edges (by norm_num) (by norm_num)
    ordinary_planck15 hL (by norm_num) (by norm_num) (by norm_num) (by norm_num) (by norm_num) le_rfl ho hr⟩

end Dsps.Props
