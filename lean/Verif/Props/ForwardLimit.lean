import Verif.Props.GridRefine
import Verif.Props.RefinePhot

/-! C157: magnitudes converge to those of the stellar population synthesis integral when every grid is refined: the SSP library's metallicities, ages and
wavelengths, the tables of the histories and the transmission curve (`/repo/dsps/sed/stellar_sed.py`, `/repo/dsps/photometry/photometry_kernels.py`). -/
namespace Dsps.Props
open Dsps.Utils Dsps.Lemmas Dsps.StellarAgeWeights Dsps.MetallicityWeights Dsps.SspWeights Dsps.Photometry Dsps.FlatWcdm Dsps.Constants Jnp Spec Set Sfh Filter Topology
open scoped BigOperators

variable {S Z Tr : ℝ → ℝ} {sfr_min T t_obs σ z₀ z₁ x₁ B : ℝ} {a b c d z : ℝ}

/-- **Specification.** the spectrum (Lsun/Hz) of a galaxy at wavelength `lam`: the mass formed by `t_obs` times the mean luminosity of its stars; `F lam u x` is the luminosity at
wavelength `lam` of one solar mass of stars of log10 metallicity `u` and log10 age `x` -/
noncomputable def Sfh.galaxySpectrum (S Z : ℝ → ℝ) (sfr_min t_obs σ : ℝ) (F : ℝ → ℝ → ℝ → ℝ) (lam : ℝ) : ℝ :=
  mass S sfr_min t_obs * meanLight S Z t_obs σ (F lam) 0.001 t_obs

/-- the galaxy's stars lie in the range of the library -/
structure Sfh.InLibrary (Z : ℝ → ℝ) (σ t_obs z₀ z₁ x₁ : ℝ) : Prop where
  cover : ∀ τ ∈ Icc 0.001 t_obs, z₀ ≤ Z τ - 3 * σ ∧ Z τ + 3 * σ ≤ z₁
  old : t_obs - 0.001 ≤ (10:ℝ) ^ x₁

lemma metMean_sub {F G : ℝ → ℝ → ℝ} {μ x : ℝ} (hF : Continuous fun p : ℝ × ℝ => F p.1 p.2) (hG : Continuous fun p : ℝ × ℝ => G p.1 p.2) :
    metMean F μ σ x - metMean G μ σ x = metMean (fun u x => F u x - G u x) μ σ x := by
  have c : ∀ F : ℝ → ℝ → ℝ, Continuous (fun p : ℝ × ℝ => F p.1 p.2) → Continuous fun v : ℝ => 35 / 96 * (1 - v ^ 2 / 9) ^ 3 * F (μ + σ * v) x := fun F hF =>
    (by fun_prop : Continuous fun v : ℝ => 35 / 96 * (1 - v ^ 2 / 9) ^ 3).mul (hF.comp (by fun_prop : Continuous fun v : ℝ => (μ + σ * v, x)))
  unfold metMean
  rw [← intervalIntegral.integral_sub ((c F hF).intervalIntegrable _ _) ((c G hG).intervalIntegrable _ _)]
  exact intervalIntegral.integral_congr fun v _ => by ring

lemma metMean_le {F : ℝ → ℝ → ℝ} (hσ : 0 < σ) (hL : InLibrary Z σ t_obs z₀ z₁ x₁) (hobs : 0.001 < t_obs) (hF : Continuous fun p : ℝ × ℝ => F p.1 p.2)
    (hB : ∀ u ∈ Icc z₀ z₁, ∀ x ≤ x₁, |F u x| ≤ B) {τ : ℝ} (hτ : τ ∈ Icc 0.001 t_obs) (hlt : τ < t_obs) : |metMean F (Z τ) σ (log10 (t_obs - τ))| ≤ B := by
  have hx : Real.logb 10 (t_obs - 0.001) ≤ x₁ := (Real.logb_le_iff_le_rpow (by norm_num) (by linarith)).mpr hL.old
  refine metMean_bound hF fun v hv => hB _ ?_ _ ?_
  · have e1 : |σ * v| ≤ 3 * σ := by rw [abs_le]; constructor <;> nlinarith [hv.1, hv.2]
    have e2 := abs_le.mp e1
    have := hL.cover τ hτ
    exact ⟨by linarith, by linarith⟩
  · exact (Real.logb_le_logb_of_le (by norm_num) (by linarith) (by linarith [hτ.1])).trans hx

lemma light_integrable {F : ℝ → ℝ → ℝ} (hσ : 0 < σ) (hS : ContinuousOn S (Icc 0.001 T)) (hZ : ContinuousOn Z (Icc 0.001 T)) (hobs : t_obs ∈ Ioc 0.001 T)
    (hL : InLibrary Z σ t_obs z₀ z₁ x₁) (hF : Continuous fun p : ℝ × ℝ => F p.1 p.2) (hB : ∀ u ∈ Icc z₀ z₁, ∀ x ≤ x₁, |F u x| ≤ B) :
    IntervalIntegrable (fun τ => max 1e-14 (S τ) * metMean F (Z τ) σ (log10 (t_obs - τ))) MeasureTheory.volume 0.001 t_obs := by
  obtain ⟨A, hA⟩ := isCompact_Icc.exists_bound_of_continuousOn (floor_cont (sfr_min := 1e-14) hS)
  refine integrable_to_end (B := A * B) hobs.1.le ?_ ?_
  · intro τ hτ
    have h := meanLight_integrand (σ := σ) (t_obs := t_obs) (b := (τ + t_obs) / 2) hZ hF (by linarith [hτ.2]) (by linarith [hτ.2, hobs.2])
    have h' := ((floor_cont (sfr_min := 1e-14) hS).mono (Icc_subset_Icc le_rfl (by linarith [hτ.2, hobs.2] : (τ + t_obs) / 2 ≤ T))).mul h
    exact (h'.continuousAt (Icc_mem_nhds hτ.1 (by linarith [hτ.2]))).continuousWithinAt
  · intro τ hτ
    rw [abs_mul]
    exact mul_le_mul (hA τ ⟨hτ.1.le, hτ.2.le.trans hobs.2⟩) (metMean_le hσ hL hobs.1 hF hB ⟨hτ.1.le, hτ.2.le⟩ hτ.2) (abs_nonneg _)
      ((abs_nonneg _).trans (hA τ ⟨hτ.1.le, hτ.2.le.trans hobs.2⟩))

/-- mean luminosities of close libraries are close -/
lemma meanLight_near {F G : ℝ → ℝ → ℝ} {ω : ℝ} (hσ : 0 < σ) (hS : ContinuousOn S (Icc 0.001 T)) (hZ : ContinuousOn Z (Icc 0.001 T)) (hobs : t_obs ∈ Ioc 0.001 T)
    (hL : InLibrary Z σ t_obs z₀ z₁ x₁) (hF : Continuous fun p : ℝ × ℝ => F p.1 p.2) (hB : ∀ u ∈ Icc z₀ z₁, ∀ x ≤ x₁, |F u x| ≤ B)
    (hG : Continuous fun p : ℝ × ℝ => G p.1 p.2) (hB' : ∀ u ∈ Icc z₀ z₁, ∀ x ≤ x₁, |G u x| ≤ B) (hω : ∀ u ∈ Icc z₀ z₁, ∀ x ≤ x₁, |F u x - G u x| ≤ ω) :
    |meanLight S Z t_obs σ F 0.001 t_obs - meanLight S Z t_obs σ G 0.001 t_obs| ≤ ω := by
  have hq := floor_int (sfr_min := 1e-14) hS (a := 0.001) (b := t_obs) ⟨le_rfl, hobs.1.le.trans hobs.2⟩ ⟨hobs.1.le, hobs.2⟩
  have iF := light_integrable hσ hS hZ hobs hL hF hB
  have iG := light_integrable hσ hS hZ hobs hL hG hB'
  have pin : 0 < ∫ τ in (0.001:ℝ)..t_obs, max 1e-14 (S τ) := intervalIntegral.intervalIntegral_pos_of_pos_on hq (fun x _ => lt_max_of_lt_left (by norm_num)) hobs.1
  have Df : mass S 1e-14 t_obs = 1e9 * ∫ τ in (0.001:ℝ)..t_obs, max 1e-14 (S τ) := rfl
  have e : ∀ τ, max 1e-14 (S τ) * metMean F (Z τ) σ (log10 (t_obs - τ)) - max 1e-14 (S τ) * metMean G (Z τ) σ (log10 (t_obs - τ)) =
      max 1e-14 (S τ) * metMean (fun u x => F u x - G u x) (Z τ) σ (log10 (t_obs - τ)) := fun τ => by rw [← metMean_sub hF hG]; ring
  have key := weighted_bound (q := fun τ => max 1e-14 (S τ)) (H := fun τ => metMean (fun u x => F u x - G u x) (Z τ) σ (log10 (t_obs - τ))) (B := ω) hobs.1.le hq
    (by simpa only [e] using iF.sub iG) (fun τ => le_max_of_le_left (by norm_num)) fun τ hτ => metMean_le hσ hL hobs.1 (hF.sub hG) hω ⟨hτ.1.le, hτ.2.le⟩ hτ.2
  unfold meanLight light
  rw [mass_start, sub_zero, Df, mul_div_mul_left _ _ (by norm_num : (1e9:ℝ) ≠ 0), mul_div_mul_left _ _ (by norm_num : (1e9:ℝ) ≠ 0), ← sub_div, ← intervalIntegral.integral_sub iF iG, abs_div,
    abs_of_pos pin, div_le_iff₀ pin]
  simpa only [e] using key

/-- fluxes of close spectra are close -/
lemma band_near {L L' : ℝ → ℝ} {η : ℝ} (hc : Covered a b c d z) (hL : ContinuousOn L (Icc c d)) (hL' : ContinuousOn L' (Icc c d)) (hT : ContinuousOn Tr (Icc a b))
    (h : ∀ x ∈ Icc c d, |L x - L' x| ≤ η) : |Band.flux L Tr a b z - Band.flux L' Tr a b z| ≤ η * ∫ x in a..b, |Tr x| / x := by
  have hx0 : ∀ x ∈ Icc a b, x ≠ 0 := fun x hx => (lt_of_lt_of_le hc.1 hx.1).ne'
  have hG : ∀ L : ℝ → ℝ, ContinuousOn L (Icc c d) → ContinuousOn (fun x => Tr x * L (x / (1 + z)) / x) (Icc a b) := fun L hL =>
    (hT.mul (hL.comp (by fun_prop) fun x hx => hc.mem hx)).div continuousOn_id hx0
  have ii : ∀ f : ℝ → ℝ, ContinuousOn f (Icc a b) → IntervalIntegrable f MeasureTheory.volume a b := fun f hf => (hf.mono (by rw [uIcc_of_le hc.2.1])).intervalIntegrable
  unfold Band.flux
  rw [← intervalIntegral.integral_sub (ii _ (hG L hL)) (ii _ (hG L' hL')), ← intervalIntegral.integral_const_mul]
  refine (intervalIntegral.abs_integral_le_integral_abs hc.2.1).trans (intervalIntegral.integral_mono_on hc.2.1 (ii _ ((hG L hL).sub (hG L' hL')).abs)
    (ii _ (continuousOn_const.mul (hT.abs.div continuousOn_id hx0))) fun x hx => ?_)
  have px : 0 < x := lt_of_lt_of_le hc.1 hx.1
  rw [← sub_div, ← mul_sub, abs_div, abs_mul, abs_of_pos px, ← mul_div_assoc, mul_comm η]
  exact div_le_div_of_nonneg_right (mul_le_mul_of_nonneg_left (h _ (hc.mem hx)) (abs_nonneg _)) px.le

/-- magnitudes of the spectra of tables with converging masses and weights -/
lemma forward_tendsto [Dtype] {k m : ℕ} {F : Fin k → Fin m → ℝ → ℝ} {M : ℝ} {w : Fin k → Fin m → ℝ} {Mt : (Σ n : ℕ, Fin (n + 2) → ℝ) → ℝ}
    {W : (Σ n : ℕ, Fin (n + 2) → ℝ) → Fin k → Fin m → ℝ} (hM : Tendsto Mt (Sfh.refine T) (𝓝 M)) (hW : ∀ i j, Tendsto (fun t => W t i j) (Sfh.refine T) (𝓝 (w i j)))
    (hc : Covered a b c d z) (hF : ∀ i j, ContinuousOn (F i j) (Icc c d)) (hT : ContinuousOn Tr (Icc a b)) (hab : Band.ab Tr a b ≠ 0)
    (hf : Band.flux (fun x => M * ∑ i, ∑ j, w i j * F i j x) Tr a b z ≠ 0) {ε : ℝ} (hε : 0 < ε) :
    ∃ δ > 0, ∀ t ∈ Sfh.Fine T δ, ∀ x ∈ Band.Fine c d δ, ∀ f ∈ Band.Fine a b δ,
      |calc_obs_mag_no_dimming x.2 (fun l => Mt t * ∑ i, ∑ j, W t i j * F i j (x.2 l)) f.2 (fun i => Tr (f.2 i)) z -
        Band.mag (fun x => M * ∑ i, ∑ j, w i j * F i j x) Tr a b z| ≤ ε := by
  have form : ∀ (M : ℝ) (A G : Fin k → Fin m → ℝ), M * ∑ i, ∑ j, A i j * G i j = ∑ p : Fin k × Fin m, (M * A p.1 p.2) * G p.1 p.2 := fun M A G => by
    rw [Fintype.sum_prod_type, Finset.mul_sum]
    refine Finset.sum_congr rfl fun i _ => ?_
    rw [Finset.mul_sum]
    exact Finset.sum_congr rfl fun j _ => by ring
  simp only [form] at hf ⊢
  have hflux : Tendsto (fun q : (Σ n : ℕ, Fin (n + 2) → ℝ) × ((Σ n : ℕ, Fin (n + 2) → ℝ) × (Σ n : ℕ, Fin (n + 2) → ℝ)) =>
      obs_flux_ssp q.2.1.2 (fun l => ∑ p : Fin k × Fin m, (Mt q.1 * W q.1 p.1 p.2) * F p.1 p.2 (q.2.1.2 l))
        q.2.2.2 (fun i => Tr (q.2.2.2 i)) z) (Sfh.refine T ×ˢ (Band.refine c d ×ˢ Band.refine a b)) (𝓝 (Band.flux (fun x => ∑ p : Fin k × Fin m, (M * w p.1 p.2) * F p.1 p.2 x) Tr a b z)) := by
    rw [band_sum (F := fun p : Fin k × Fin m => F p.1 p.2) _ _ hc (fun p => hF p.1 p.2) hT]
    simp only [obs_flux_sum]
    refine tendsto_finsetSum _ fun p _ => Tendsto.mul ?_ ?_
    · exact (hM.mul (hW p.1 p.2)).comp tendsto_fst
    · exact (C141_flux_converges hc (hF p.1 p.2) hT).comp tendsto_snd
  have h1 := hflux.div ((C141_ab_converges hc.1 hc.2.1 hT).comp ((tendsto_snd (f := Band.refine c d) (g := Band.refine a b)).comp (tendsto_snd (f := Sfh.refine T)))) hab
  have h2 := (((Real.continuousAt_log (div_ne_zero hf hab)).tendsto.comp h1).div_const (Real.log 10)).const_mul (-2.5)
  rw [((refine_basis T).prod ((Band.refine_basis c d).prod (Band.refine_basis a b))).tendsto_iff Metric.nhds_basis_closedBall] at h2
  obtain ⟨⟨δ1, δ2, δ3⟩, ⟨p1, p2, p3⟩, h3⟩ := h2 ε hε
  refine ⟨min δ1 (min δ2 δ3), lt_min p1 (lt_min p2 p3), fun t ht x hx f hf => ?_⟩
  refine h3 (t, x, f) ⟨?_, ?_, ?_⟩
  · exact ⟨ht.1, ht.2.1, ht.2.2.1, ht.2.2.2.1.trans (min_le_left _ _), fun i => (ht.2.2.2.2 i).trans (min_le_left _ _)⟩
  · exact ⟨hx.1, hx.2.1, hx.2.2.1, fun i => (hx.2.2.2 i).trans ((min_le_right _ _).trans (min_le_left _ _))⟩
  · exact ⟨hf.1, hf.2.1, hf.2.2.1, fun i => (hf.2.2.2 i).trans ((min_le_right _ _).trans (min_le_right _ _))⟩

/-- **A library of spectra**: luminosities `F lam u x` at wavelengths in `[c, d]`, log10 metallicities in `[z₀, z₁]` and log10 ages up to `x₁`: continuous, uniformly so over
that range, and bounded -/
structure Sfh.Library (F : ℝ → ℝ → ℝ → ℝ) (c d z₀ z₁ x₁ B : ℝ) : Prop where
  cont : Continuous fun q : ℝ × ℝ × ℝ => F q.1 q.2.1 q.2.2
  unif : UniformContinuousOn (fun q : ℝ × ℝ × ℝ => F q.1 q.2.1 q.2.2) (Icc c d ×ˢ Icc z₀ z₁ ×ˢ Iic x₁)
  bound : ∀ lam ∈ Icc c d, ∀ u ∈ Icc z₀ z₁, ∀ x ≤ x₁, |F lam u x| ≤ B

section
variable {F : ℝ → ℝ → ℝ → ℝ}

lemma Sfh.Library.cont2 (hl : Library F c d z₀ z₁ x₁ B) (lam : ℝ) : Continuous fun p : ℝ × ℝ => F lam p.1 p.2 :=
  hl.cont.comp (by fun_prop : Continuous fun p : ℝ × ℝ => (lam, p.1, p.2))

lemma Sfh.Library.modulus (hl : Library F c d z₀ z₁ x₁ B) {ω : ℝ} (hω : 0 < ω) : ∃ δ > 0, ∀ lam ∈ Icc c d, ∀ lam' ∈ Icc c d, ∀ u ∈ Icc z₀ z₁, ∀ u' ∈ Icc z₀ z₁, ∀ x ≤ x₁, ∀ x' ≤ x₁,
    |lam - lam'| ≤ δ → |u - u'| ≤ δ → |x - x'| ≤ δ → |F lam u x - F lam' u' x'| ≤ ω := by
  obtain ⟨δ, hδ, h⟩ := Metric.uniformContinuousOn_iff_le.mp hl.unif ω hω
  refine ⟨δ, hδ, fun lam hl lam' hl' u hu u' hu' x hx x' hx' h1 h2 h3 => h (lam, u, x) ⟨hl, hu, hx⟩ (lam', u', x') ⟨hl', hu', hx'⟩ ?_⟩
  rw [Prod.dist_eq, Prod.dist_eq, Real.dist_eq, Real.dist_eq, Real.dist_eq]
  exact max_le h1 (max_le h2 h3)

lemma galaxySpectrum_continuousOn (hσ : 0 < σ) (hS : ContinuousOn S (Icc 0.001 T)) (hZ : ContinuousOn Z (Icc 0.001 T)) (hobs : t_obs ∈ Ioc 0.001 T)
    (hL : InLibrary Z σ t_obs z₀ z₁ x₁) (hl : Library F c d z₀ z₁ x₁ B) : ContinuousOn (galaxySpectrum S Z sfr_min t_obs σ F) (Icc c d) := by
  refine continuousOn_const.mul ?_
  rw [Metric.continuousOn_iff]
  intro lam hlam ε hε
  obtain ⟨δ, hδ, h⟩ := hl.modulus (half_pos hε)
  refine ⟨δ, hδ, fun lam' hlam' hd => ?_⟩
  have := meanLight_near (ω := ε / 2) hσ hS hZ hobs hL (hl.cont2 lam') (hl.bound lam' hlam') (hl.cont2 lam) (hl.bound lam hlam) fun u hu x hx =>
    h lam' hlam' lam hlam u hu u hu x hx x hx (by rw [← Real.dist_eq]; exact hd.le) (by simpa using hδ.le) (by simpa using hδ.le)
  rw [Real.dist_eq]
  linarith

/-- the spectrum with the exact shares of the mass in the age bins -/
noncomputable def gridSpectrum {k m : ℕ} (S Z : ℝ → ℝ) (sfr_min t_obs σ : ℝ) (F : ℝ → ℝ → ℝ → ℝ) (y : Fin (k + 3) → ℝ) (g : Fin (m + 3) → ℝ) (lam : ℝ) : ℝ :=
  mass S sfr_min t_obs * ∑ i, ∑ j, (calc_lgmet_weights_from_lognormal_mdf (Z (birthTime t_obs (g j))) σ y i * binShare S t_obs g j) * F lam (y i) (g j)

lemma gridSpectrum_near (hs : 0 < sfr_min) (hσ : 0 < σ) (hS : ContinuousOn S (Icc 0.001 T)) (hZ : ContinuousOn Z (Icc 0.001 T)) (hobs : t_obs ∈ Ioc 0.001 T)
    (hz0 : -10 < z₀) (hz1 : z₁ < 10) (hl : Library F c d z₀ z₁ x₁ B) {η : ℝ} (hη : 0 < η) :
    ∃ δ > 0, ∀ (k m : ℕ) (y : Fin (k + 3) → ℝ) (g : Fin (m + 3) → ℝ), Suits δ Z σ t_obs z₀ z₁ x₁ y g →
      Populated S t_obs g ∧ ∀ lam ∈ Icc c d, |gridSpectrum S Z sfr_min t_obs σ F y g lam - galaxySpectrum S Z sfr_min t_obs σ F lam| ≤ η := by
  have hobs' : t_obs ∈ Icc 0.001 T := ⟨hobs.1.le, hobs.2⟩
  set M := mass S sfr_min t_obs with hM
  have mn : 0 ≤ M := by
    have := intervalIntegral.integral_nonneg (μ := MeasureTheory.volume) hobs.1.le fun x (_ : x ∈ Icc 0.001 t_obs) => hs.le.trans (le_max_left sfr_min (S x))
    rw [hM]; unfold mass; positivity
  set ω := η / (4 * (M + 1)) with hω
  have hωp : 0 < ω := by positivity
  obtain ⟨δ₁, hδ₁, δ, hδ, hle, hfine⟩ := suits_fine (F := fun lam : Icc c d => F lam.1) (B := B) (ω := ω) (z₀ := z₀) (z₁ := z₁) (x₁ := x₁) hσ hS hZ hobs (fun lam => hl.cont2 lam.1)
    (by obtain ⟨δ, hδ, h⟩ := hl.modulus hωp
        exact ⟨δ, hδ, fun lam u hu u' hu' x hx x' hx' h1 h2 => h lam.1 lam.2 lam.1 lam.2 u hu u' hu' x hx x' hx' (by simpa using hδ.le) h1 h2⟩) (fun lam => hl.bound lam.1 lam.2) hωp
  refine ⟨δ, hδ, fun k m y g hg => ?_⟩
  obtain ⟨hgrad, hst, hpos, last, out⟩ := hfine k m y g hg
  refine ⟨hpos, fun lam hlam => ?_⟩
  have g1 := C156_grid_error (F := F lam) hσ hS hZ hobs' hg.mild_a hg.mesh_a hg.mild_z (fun i => (hg.mesh_z i).trans hle) (by linarith [hg.lo]) (by linarith [hg.hi]) hg.cover (hl.cont2 lam)
    (hgrad ⟨lam, hlam⟩) hst hpos
  rw [last] at g1
  have g2 := (abs_sub_le _ _ _).trans (add_le_add g1 (out ⟨lam, hlam⟩))
  unfold gridSpectrum galaxySpectrum
  rw [← mul_sub, abs_mul, ← hM, abs_of_nonneg mn]
  refine (mul_le_mul_of_nonneg_left g2 mn).trans ?_
  have : M * (2 * ω + 2 * ω) = η * (M / (M + 1)) := by rw [hω]; field_simp; ring
  rw [this]
  exact mul_le_of_le_one_right hη.le ((div_le_one (by positivity)).mpr (by linarith))

/-- magnitudes, for any way of computing the spectrum from tables whose masses and weights converge to the exact ones -/
lemma magnitude_limit [Dtype] {Mt : (Σ n : ℕ, Fin (n + 2) → ℝ) → ℝ}
    {W : ∀ {k m : ℕ}, (Fin (k + 3) → ℝ) → (Fin (m + 3) → ℝ) → (Σ n : ℕ, Fin (n + 2) → ℝ) → Fin (k + 3) → Fin (m + 3) → ℝ} (hs : 0 < sfr_min) (hσ : 0 < σ)
    (hS : ContinuousOn S (Icc 0.001 T)) (hZ : ContinuousOn Z (Icc 0.001 T)) (hobs : t_obs ∈ Ioc 0.001 T) (hz0 : -10 < z₀) (hz1 : z₁ < 10)
    (hL : InLibrary Z σ t_obs z₀ z₁ x₁) (hl : Library F c d z₀ z₁ x₁ B) (hc : Covered a b c d z) (hT : ContinuousOn Tr (Icc a b)) (hab : Band.ab Tr a b ≠ 0)
    (hf : Band.flux (galaxySpectrum S Z sfr_min t_obs σ F) Tr a b z ≠ 0)
    (hM : Tendsto Mt (Sfh.refine T) (𝓝 (mass S sfr_min t_obs)))
    (hW : ∀ (k m : ℕ) (y : Fin (k + 3) → ℝ) (g : Fin (m + 3) → ℝ), MildlySpaced y → MildlySpaced g → -10 < y 0 → y (Fin.last (k + 2)) < 10 → Populated S t_obs g → ∀ i j,
      Tendsto (fun t => W y g t i j) (Sfh.refine T) (𝓝 (calc_lgmet_weights_from_lognormal_mdf (Z (birthTime t_obs (g j))) σ y i * binShare S t_obs g j))) {ε : ℝ} (hε : 0 < ε) :
    ∃ δ > 0, ∀ (k m : ℕ) (y : Fin (k + 3) → ℝ) (g : Fin (m + 3) → ℝ), Suits δ Z σ t_obs z₀ z₁ x₁ y g →
      ∃ δ' > 0, ∀ t ∈ Sfh.Fine T δ', ∀ x ∈ Band.Fine c d δ', ∀ f ∈ Band.Fine a b δ',
        |calc_obs_mag_no_dimming x.2 (fun l => Mt t * ∑ i, ∑ j, W y g t i j * F (x.2 l) (y i) (g j)) f.2 (fun i => Tr (f.2 i)) z -
          Band.mag (galaxySpectrum S Z sfr_min t_obs σ F) Tr a b z| ≤ ε := by
  set φ := Band.flux (galaxySpectrum S Z sfr_min t_obs σ F) Tr a b z with hφ
  have hcontG := galaxySpectrum_continuousOn (sfr_min := sfr_min) hσ hS hZ hobs hL hl
  have clog : ContinuousAt (fun p => -2.5 * Real.logb 10 (p / Band.ab Tr a b)) φ := by
    have h1 : ContinuousAt (fun p => p / Band.ab Tr a b) φ := continuousAt_id.div_const _
    have h2 : ContinuousAt (fun p => Real.log (p / Band.ab Tr a b) / Real.log 10) φ := (h1.log (div_ne_zero hf hab)).div_const _
    exact continuousAt_const.mul h2
  obtain ⟨r, hr, hlog⟩ := Metric.continuousAt_iff.mp clog (ε / 2) (half_pos hε)
  set K := ∫ x in a..b, |Tr x| / x with hK
  have K0 : 0 ≤ K := intervalIntegral.integral_nonneg hc.2.1 fun x hx => div_nonneg (abs_nonneg _) (lt_of_lt_of_le hc.1 hx.1).le
  have r0 : 0 < min r |φ| := lt_min hr (abs_pos.mpr hf)
  obtain ⟨δ, hδ, hnear⟩ := gridSpectrum_near (η := min r |φ| / (2 * (K + 1))) hs hσ hS hZ hobs hz0 hz1 hl (by positivity)
  refine ⟨δ, hδ, fun k m y g hg => ?_⟩
  obtain ⟨hpos, hn⟩ := hnear k m y g hg
  have hcg : ∀ i j, ContinuousOn (fun lam => F lam (y i) (g j)) (Icc c d) := fun i j =>
    (hl.cont.comp (by fun_prop : Continuous fun lam : ℝ => (lam, y i, g j))).continuousOn
  have hcontg : ContinuousOn (gridSpectrum S Z sfr_min t_obs σ F y g) (Icc c d) := by
    unfold gridSpectrum
    exact continuousOn_const.mul (continuousOn_finset_sum _ fun i _ => continuousOn_finset_sum _ fun j _ => continuousOn_const.mul (hcg i j))
  have fl : |Band.flux (gridSpectrum S Z sfr_min t_obs σ F y g) Tr a b z - φ| < min r |φ| := by
    refine (band_near hc hcontg hcontG hT hn).trans_lt ?_
    rw [← hK, div_mul_eq_mul_div, div_lt_iff₀ (by positivity)]
    nlinarith
  have fne : Band.flux (gridSpectrum S Z sfr_min t_obs σ F y g) Tr a b z ≠ 0 := by
    intro h0
    rw [h0, zero_sub, abs_neg] at fl
    exact absurd (fl.trans_le (min_le_right _ _)) (lt_irrefl _)
  have mg : |Band.mag (gridSpectrum S Z sfr_min t_obs σ F y g) Tr a b z - Band.mag (galaxySpectrum S Z sfr_min t_obs σ F) Tr a b z| ≤ ε / 2 :=
    (hlog (by rw [Real.dist_eq]; exact fl.trans_le (min_le_left _ _))).le
  obtain ⟨δ', hδ', h⟩ := forward_tendsto (F := fun i j lam => F lam (y i) (g j)) (Mt := Mt) (W := W y g) hM
    (fun i j => hW k m y g hg.mild_z hg.mild_a (by linarith [hg.lo]) (by linarith [hg.hi]) hpos i j) hc hcg hT hab fne (half_pos hε)
  refine ⟨δ', hδ', fun t ht x hx f hf => ?_⟩
  have e := (abs_sub_le _ _ _).trans (add_le_add (h t ht x hx f hf) mg)
  linarith

/-- C157: **apparent magnitudes converge to those of the stellar population synthesis integral** (metallicity history).  For every continuous star formation and metallicity history, library of
spectra and transmission curve: for fine enough grids of SSP metallicities and ages, and then for fine enough time tables, wavelength grids and filter grids, the apparent magnitude of
the galaxy is as close as wished to that of the mass formed times the mean luminosity of its stars. -/
theorem C157_obs_mag_met_history [Dtype] (hs : 0 < sfr_min) (hσ : 0 < σ) (hS : ContinuousOn S (Icc 0.001 T)) (hZ : ContinuousOn Z (Icc 0.001 T)) (hobs : t_obs ∈ Ioc 0.001 T)
    (hz0 : -10 < z₀) (hz1 : z₁ < 10) (hL : InLibrary Z σ t_obs z₀ z₁ x₁) (hl : Library F c d z₀ z₁ x₁ B) (hc : Covered a b c d z) (hT : ContinuousOn Tr (Icc a b))
    (hab : Band.ab Tr a b ≠ 0) (hf : Band.flux (galaxySpectrum S Z sfr_min t_obs σ F) Tr a b z ≠ 0) (Om0 w0 wa h : ℝ) {ε : ℝ} (hε : 0 < ε) :
    ∃ δ > 0, ∀ (k m : ℕ) (y : Fin (k + 3) → ℝ) (g : Fin (m + 3) → ℝ), Suits δ Z σ t_obs z₀ z₁ x₁ y g →
      ∃ δ' > 0, ∀ t ∈ Sfh.Fine T δ', ∀ x ∈ Band.Fine c d δ', ∀ f ∈ Band.Fine a b δ',
        |calc_obs_mag x.2 (calc_rest_sed_sfh_table_met_table t.2 (fun i => S (t.2 i)) (fun i => Z (t.2 i)) σ y g (fun i j l => F (x.2 l) (y i) (g j)) t_obs sfr_min).rest_sed
            f.2 (fun i => Tr (f.2 i)) z Om0 w0 wa h -
          (Band.mag (galaxySpectrum S Z sfr_min t_obs σ F) Tr a b z + (distance_modulus_to_z z Om0 w0 wa h - 2.5 * Real.logb 10 (1 + z)))| ≤ ε := by
  have hobs' : t_obs ∈ Icc 0.001 T := ⟨hobs.1.le, hobs.2⟩
  obtain ⟨δ, hδ, key⟩ := magnitude_limit (Mt := fun t => massFormed t.2 (fun i => S (t.2 i)) sfr_min t_obs)
    (W := fun y g t => (calc_ssp_weights_sfh_table_met_table t.2 (fun i => S (t.2 i)) (fun i => Z (t.2 i)) σ y g t_obs).weights) hs hσ hS hZ hobs hz0 hz1 hL hl hc hT hab hf
    (mass_tendsto hs hS hobs') (fun k m y g h1 h2 h3 h4 h5 i j => joint_met_tendsto hS hZ hobs' (C17_age_edges_mono g h2).monotone h5 hσ h1 h3 h4 i j) hε
  refine ⟨δ, hδ, fun k m y g hg => ?_⟩
  obtain ⟨δ', hδ', key⟩ := key k m y g hg
  refine ⟨δ', hδ', fun t ht x hx f hf => ?_⟩
  have e : (calc_rest_sed_sfh_table_met_table t.2 (fun i => S (t.2 i)) (fun i => Z (t.2 i)) σ y g (fun i j l => F (x.2 l) (y i) (g j)) t_obs sfr_min).rest_sed = _ :=
    funext fun l => (C25_sed_formula t.2 (fun i => S (t.2 i)) (fun i => Z (t.2 i)) 0 σ y g (fun i j l => F (x.2 l) (y i) (g j)) t_obs sfr_min l).2
  have := key t ht x hx f hf
  rw [e]
  unfold calc_obs_mag cosmological_dimming
  unfold calc_obs_mag_no_dimming at this
  simp only [Jnp.log10] at this ⊢
  rwa [show ∀ p q r : ℝ, p + q - (r + q) = p - r by intros; ring]

/-- C157: **apparent magnitudes converge to those of the stellar population synthesis integral** (one metallicity distribution).  For every continuous star formation history, library of
spectra and transmission curve: for fine enough grids of SSP metallicities and ages, and then for fine enough time tables, wavelength grids and filter grids, the apparent magnitude of
the galaxy is as close as wished to that of the mass formed times the mean luminosity of its stars. -/
theorem C157_obs_mag_lognormal [Dtype] {μ : ℝ} (hs : 0 < sfr_min) (hσ : 0 < σ) (hS : ContinuousOn S (Icc 0.001 T)) (hobs : t_obs ∈ Ioc 0.001 T)
    (hz0 : -10 < z₀) (hz1 : z₁ < 10) (hL : InLibrary (fun _ => μ) σ t_obs z₀ z₁ x₁) (hl : Library F c d z₀ z₁ x₁ B) (hc : Covered a b c d z) (hT : ContinuousOn Tr (Icc a b))
    (hab : Band.ab Tr a b ≠ 0) (hf : Band.flux (galaxySpectrum S (fun _ => μ) sfr_min t_obs σ F) Tr a b z ≠ 0) (Om0 w0 wa h : ℝ) {ε : ℝ} (hε : 0 < ε) :
    ∃ δ > 0, ∀ (k m : ℕ) (y : Fin (k + 3) → ℝ) (g : Fin (m + 3) → ℝ), Suits δ (fun _ => μ) σ t_obs z₀ z₁ x₁ y g →
      ∃ δ' > 0, ∀ t ∈ Sfh.Fine T δ', ∀ x ∈ Band.Fine c d δ', ∀ f ∈ Band.Fine a b δ',
        |calc_obs_mag x.2 (calc_rest_sed_sfh_table_lognormal_mdf t.2 (fun i => S (t.2 i)) μ σ y g (fun i j l => F (x.2 l) (y i) (g j)) t_obs sfr_min).rest_sed
            f.2 (fun i => Tr (f.2 i)) z Om0 w0 wa h -
          (Band.mag (galaxySpectrum S (fun _ => μ) sfr_min t_obs σ F) Tr a b z + (distance_modulus_to_z z Om0 w0 wa h - 2.5 * Real.logb 10 (1 + z)))| ≤ ε := by
  have hobs' : t_obs ∈ Icc 0.001 T := ⟨hobs.1.le, hobs.2⟩
  obtain ⟨δ, hδ, key⟩ := magnitude_limit (Mt := fun t => massFormed t.2 (fun i => S (t.2 i)) sfr_min t_obs)
    (W := fun y g t => (calc_ssp_weights_sfh_table_lognormal_mdf t.2 (fun i => S (t.2 i)) μ σ y g t_obs).weights) (Z := fun _ => μ) hs hσ hS continuousOn_const hobs hz0 hz1 hL hl hc hT hab hf
    (mass_tendsto hs hS hobs') (fun k m y g h1 h2 h3 h4 h5 i j => joint_tendsto hS hobs' (C17_age_edges_mono g h2).monotone h5 (C21_lgmet_weights_prob_mild_partial μ σ hσ y h1 h3 h4).2 i j) hε
  refine ⟨δ, hδ, fun k m y g hg => ?_⟩
  obtain ⟨δ', hδ', key⟩ := key k m y g hg
  refine ⟨δ', hδ', fun t ht x hx f hf => ?_⟩
  have e : (calc_rest_sed_sfh_table_lognormal_mdf t.2 (fun i => S (t.2 i)) μ σ y g (fun i j l => F (x.2 l) (y i) (g j)) t_obs sfr_min).rest_sed = _ :=
    funext fun l => (C25_sed_formula t.2 (fun i => S (t.2 i)) (fun _ => 0) μ σ y g (fun i j l => F (x.2 l) (y i) (g j)) t_obs sfr_min l).1
  have := key t ht x hx f hf
  rw [e]
  unfold calc_obs_mag cosmological_dimming
  unfold calc_obs_mag_no_dimming at this
  simp only [Jnp.log10] at this ⊢
  rwa [show ∀ p q r : ℝ, p + q - (r + q) = p - r by intros; ring]

/-- C157: **rest-frame magnitudes converge to those of the stellar population synthesis integral** (metallicity history).  For every continuous star formation and metallicity history, library of
spectra and transmission curve: for fine enough grids of SSP metallicities and ages, and then for fine enough time tables, wavelength grids and filter grids, the rest-frame magnitude of
the galaxy is as close as wished to that of the mass formed times the mean luminosity of its stars. -/
theorem C157_rest_mag_met_history [Dtype] (hs : 0 < sfr_min) (hσ : 0 < σ) (hS : ContinuousOn S (Icc 0.001 T)) (hZ : ContinuousOn Z (Icc 0.001 T)) (hobs : t_obs ∈ Ioc 0.001 T)
    (hz0 : -10 < z₀) (hz1 : z₁ < 10) (hL : InLibrary Z σ t_obs z₀ z₁ x₁) (hl : Library F c d z₀ z₁ x₁ B) (hc : Covered a b c d 0) (hT : ContinuousOn Tr (Icc a b))
    (hab : Band.ab Tr a b ≠ 0) (hf : Band.flux (galaxySpectrum S Z sfr_min t_obs σ F) Tr a b 0 ≠ 0) {ε : ℝ} (hε : 0 < ε) :
    ∃ δ > 0, ∀ (k m : ℕ) (y : Fin (k + 3) → ℝ) (g : Fin (m + 3) → ℝ), Suits δ Z σ t_obs z₀ z₁ x₁ y g →
      ∃ δ' > 0, ∀ t ∈ Sfh.Fine T δ', ∀ x ∈ Band.Fine c d δ', ∀ f ∈ Band.Fine a b δ',
        |calc_rest_mag x.2 (calc_rest_sed_sfh_table_met_table t.2 (fun i => S (t.2 i)) (fun i => Z (t.2 i)) σ y g (fun i j l => F (x.2 l) (y i) (g j)) t_obs sfr_min).rest_sed
            f.2 (fun i => Tr (f.2 i)) -
          Band.mag (galaxySpectrum S Z sfr_min t_obs σ F) Tr a b 0| ≤ ε := by
  have hobs' : t_obs ∈ Icc 0.001 T := ⟨hobs.1.le, hobs.2⟩
  obtain ⟨δ, hδ, key⟩ := magnitude_limit (Mt := fun t => massFormed t.2 (fun i => S (t.2 i)) sfr_min t_obs)
    (W := fun y g t => (calc_ssp_weights_sfh_table_met_table t.2 (fun i => S (t.2 i)) (fun i => Z (t.2 i)) σ y g t_obs).weights) hs hσ hS hZ hobs hz0 hz1 hL hl hc hT hab hf
    (mass_tendsto hs hS hobs') (fun k m y g h1 h2 h3 h4 h5 i j => joint_met_tendsto hS hZ hobs' (C17_age_edges_mono g h2).monotone h5 hσ h1 h3 h4 i j) hε
  refine ⟨δ, hδ, fun k m y g hg => ?_⟩
  obtain ⟨δ', hδ', key⟩ := key k m y g hg
  refine ⟨δ', hδ', fun t ht x hx f hf => ?_⟩
  have e : (calc_rest_sed_sfh_table_met_table t.2 (fun i => S (t.2 i)) (fun i => Z (t.2 i)) σ y g (fun i j l => F (x.2 l) (y i) (g j)) t_obs sfr_min).rest_sed = _ :=
    funext fun l => (C25_sed_formula t.2 (fun i => S (t.2 i)) (fun i => Z (t.2 i)) 0 σ y g (fun i j l => F (x.2 l) (y i) (g j)) t_obs sfr_min l).2
  have := key t ht x hx f hf
  rw [e]
  unfold calc_rest_mag calc_rest_flux
  unfold calc_obs_mag_no_dimming at this
  simp only at this ⊢
  rwa [← obs_eq_rest_at_zero]

/-- C157: **rest-frame magnitudes converge to those of the stellar population synthesis integral** (one metallicity distribution).  For every continuous star formation history, library of
spectra and transmission curve: for fine enough grids of SSP metallicities and ages, and then for fine enough time tables, wavelength grids and filter grids, the rest-frame magnitude of
the galaxy is as close as wished to that of the mass formed times the mean luminosity of its stars. -/
theorem C157_rest_mag_lognormal [Dtype] {μ : ℝ} (hs : 0 < sfr_min) (hσ : 0 < σ) (hS : ContinuousOn S (Icc 0.001 T)) (hobs : t_obs ∈ Ioc 0.001 T)
    (hz0 : -10 < z₀) (hz1 : z₁ < 10) (hL : InLibrary (fun _ => μ) σ t_obs z₀ z₁ x₁) (hl : Library F c d z₀ z₁ x₁ B) (hc : Covered a b c d 0) (hT : ContinuousOn Tr (Icc a b))
    (hab : Band.ab Tr a b ≠ 0) (hf : Band.flux (galaxySpectrum S (fun _ => μ) sfr_min t_obs σ F) Tr a b 0 ≠ 0) {ε : ℝ} (hε : 0 < ε) :
    ∃ δ > 0, ∀ (k m : ℕ) (y : Fin (k + 3) → ℝ) (g : Fin (m + 3) → ℝ), Suits δ (fun _ => μ) σ t_obs z₀ z₁ x₁ y g →
      ∃ δ' > 0, ∀ t ∈ Sfh.Fine T δ', ∀ x ∈ Band.Fine c d δ', ∀ f ∈ Band.Fine a b δ',
        |calc_rest_mag x.2 (calc_rest_sed_sfh_table_lognormal_mdf t.2 (fun i => S (t.2 i)) μ σ y g (fun i j l => F (x.2 l) (y i) (g j)) t_obs sfr_min).rest_sed
            f.2 (fun i => Tr (f.2 i)) -
          Band.mag (galaxySpectrum S (fun _ => μ) sfr_min t_obs σ F) Tr a b 0| ≤ ε := by
  have hobs' : t_obs ∈ Icc 0.001 T := ⟨hobs.1.le, hobs.2⟩
  obtain ⟨δ, hδ, key⟩ := magnitude_limit (Mt := fun t => massFormed t.2 (fun i => S (t.2 i)) sfr_min t_obs)
    (W := fun y g t => (calc_ssp_weights_sfh_table_lognormal_mdf t.2 (fun i => S (t.2 i)) μ σ y g t_obs).weights) (Z := fun _ => μ) hs hσ hS continuousOn_const hobs hz0 hz1 hL hl hc hT hab hf
    (mass_tendsto hs hS hobs') (fun k m y g h1 h2 h3 h4 h5 i j => joint_tendsto hS hobs' (C17_age_edges_mono g h2).monotone h5 (C21_lgmet_weights_prob_mild_partial μ σ hσ y h1 h3 h4).2 i j) hε
  refine ⟨δ, hδ, fun k m y g hg => ?_⟩
  obtain ⟨δ', hδ', key⟩ := key k m y g hg
  refine ⟨δ', hδ', fun t ht x hx f hf => ?_⟩
  have e : (calc_rest_sed_sfh_table_lognormal_mdf t.2 (fun i => S (t.2 i)) μ σ y g (fun i j l => F (x.2 l) (y i) (g j)) t_obs sfr_min).rest_sed = _ :=
    funext fun l => (C25_sed_formula t.2 (fun i => S (t.2 i)) (fun _ => 0) μ σ y g (fun i j l => F (x.2 l) (y i) (g j)) t_obs sfr_min l).1
  have := key t ht x hx f hf
  rw [e]
  unfold calc_rest_mag calc_rest_flux
  unfold calc_obs_mag_no_dimming at this
  simp only at this ⊢
  rwa [← obs_eq_rest_at_zero]

end

section
attribute [local instance] Dtype.float64

/-- a library with brighter stars at longer wavelengths -/
noncomputable def caseSpectra (lam u x : ℝ) : ℝ := lam / 10000 + caseLight u x

lemma caseSpectra_library : Library caseSpectra 2000 10000 (-3) 0 2 12 := by
  refine ⟨?_, ?_, ?_⟩
  · unfold caseSpectra
    exact (by fun_prop : Continuous fun q : ℝ × ℝ × ℝ => q.1 / 10000).add (caseLight_cont.comp (by fun_prop : Continuous fun q : ℝ × ℝ × ℝ => (q.2.1, q.2.2)))
  · rw [Metric.uniformContinuousOn_iff_le]
    intro ε hε
    refine ⟨ε / 3, by positivity, fun p _ q _ h => ?_⟩
    rw [Prod.dist_eq, Prod.dist_eq, Real.dist_eq, Real.dist_eq, Real.dist_eq] at h
    have := caseLight_lip p.2.1 p.2.2 q.2.1 q.2.2
    have h1 := (le_max_left _ _).trans h
    have h2 := (le_max_left _ _).trans ((le_max_right _ _).trans h)
    have h3 := (le_max_right _ _).trans ((le_max_right _ _).trans h)
    show |p.1 / 10000 + caseLight p.2.1 p.2.2 - (q.1 / 10000 + caseLight q.2.1 q.2.2)| ≤ ε
    rw [abs_le] at this h1 ⊢
    constructor <;> linarith [this.1, this.2, h1.1, h1.2]
  · intro lam hl u hu x hx
    have := abs_le.mp (caseLight_bound u hu x hx)
    unfold caseSpectra
    rw [abs_le]
    constructor <;> linarith [hl.1, hl.2]

lemma case_inLibrary : InLibrary (fun x => x / 10 - 2) 0.2 13 (-3) 0 2 := ⟨case_enrich, by norm_num⟩
lemma case_inLibrary' : InLibrary (fun _ => -1) 0.2 13 (-3) 0 2 := ⟨fun _ _ => ⟨by norm_num, by norm_num⟩, by norm_num⟩

/-- the spectrum is bright at every wavelength -/
lemma caseSpectra_bright {Z : ℝ → ℝ} (hZ : ContinuousOn Z (Icc 0.001 13.8)) (hL : InLibrary Z 0.2 13 (-3) 0 2) {lam : ℝ} (hlam : lam ∈ Icc (2000:ℝ) 10000) :
    0 < galaxySpectrum (fun x => 1 + x) Z 1e-14 13 0.2 caseSpectra lam := by
  have hq := floor_int (S := fun x => 1 + x) (T := 13.8) (sfr_min := 1e-14) (a := 0.001) (b := 13) (by fun_prop) ⟨le_rfl, by norm_num⟩ ⟨by norm_num, by norm_num⟩
  have pin : 0 < ∫ τ in (0.001:ℝ)..13, max 1e-14 (1 + τ) := intervalIntegral.intervalIntegral_pos_of_pos_on hq (fun x _ => lt_max_of_lt_left (by norm_num)) (by norm_num)
  have pm : 0 < mass (fun x => 1 + x) 1e-14 13 := by unfold mass; positivity
  have hconst : meanLight (fun x => 1 + x) Z 13 0.2 (fun _ _ => 7.5) 0.001 13 = 7.5 := by
    have hm : ∀ μ x : ℝ, metMean (fun _ _ => 7.5) μ 0.2 x = 7.5 := fun μ x => by
      unfold metMean; rw [intervalIntegral.integral_mul_const, metKernel_one, one_mul]
    unfold meanLight light
    simp only [hm]
    rw [intervalIntegral.integral_mul_const, mass_start, sub_zero, ← mul_assoc]
    exact mul_div_cancel_left₀ _ pm.ne'
  have near := meanLight_near (F := caseSpectra lam) (G := fun _ _ => 7.5) (B := 12) (ω := 4.5) (T := 13.8) (by norm_num) (by fun_prop : ContinuousOn (fun x : ℝ => 1 + x) _) hZ ⟨by norm_num, by norm_num⟩ hL
    (caseSpectra_library.cont2 lam) (caseSpectra_library.bound lam hlam) continuous_const (fun _ _ _ _ => by norm_num) (fun u hu x hx => by
      have h1 : max x (-3) ≤ 2 := max_le hx (by norm_num)
      have h2 := le_max_right x (-3)
      unfold caseSpectra caseLight
      rw [abs_le]
      constructor <;> linarith [hlam.1, hlam.2, hu.1, hu.2])
  rw [hconst] at near
  unfold galaxySpectrum
  exact mul_pos pm (by linarith [(abs_le.mp near).1])

lemma caseSpectra_flux {Z : ℝ → ℝ} (hZ : ContinuousOn Z (Icc 0.001 13.8)) (hL : InLibrary Z 0.2 13 (-3) 0 2) {z : ℝ} (hc : Covered 4000 5000 2000 10000 z) :
    Band.flux (galaxySpectrum (fun x => 1 + x) Z 1e-14 13 0.2 caseSpectra) (fun _ => 1) 4000 5000 z ≠ 0 := by
  refine (intervalIntegral.intervalIntegral_pos_of_pos_on ?_ (fun x hx => ?_) (by norm_num)).ne'
  · refine ContinuousOn.intervalIntegrable ?_
    rw [uIcc_of_le (by norm_num)]
    exact (continuousOn_const.mul ((galaxySpectrum_continuousOn (T := 13.8) (by norm_num) (by fun_prop) hZ ⟨by norm_num, by norm_num⟩ hL caseSpectra_library).comp (by fun_prop) fun x hx => hc.mem hx)).div
      continuousOn_id fun x hx => (lt_of_lt_of_le (by norm_num) hx.1).ne'
  · have h1 := caseSpectra_bright hZ hL (hc.mem ⟨hx.1.le, hx.2.le⟩)
    have h2 : (0:ℝ) < x := lt_trans (by norm_num) hx.1
    simp only [one_mul]
    positivity

lemma case_lin_cont : ContinuousOn (fun x : ℝ => x / 10 - 2) (Icc 0.001 13.8) := by fun_prop

/-- cases: star formation rate (and metallicity) rising linearly, seen at 13 Gyr through a box filter -/
example := C157_obs_mag_met_history (S := fun x => 1 + x) (T := 13.8) (sfr_min := 1e-14) (Tr := fun _ => 1) (by norm_num) (by norm_num) (by fun_prop) case_lin_cont ⟨by norm_num, by norm_num⟩
  (by norm_num) (by norm_num) case_inLibrary caseSpectra_library case_covered (by fun_prop) case_ab_pos.ne' (caseSpectra_flux case_lin_cont case_inLibrary case_covered) 0.3 (-1) 0 0.7
  (ε := 1 / 100) (by norm_num)
example := C157_obs_mag_lognormal (S := fun x => 1 + x) (T := 13.8) (sfr_min := 1e-14) (Tr := fun _ => 1) (by norm_num) (by norm_num) (by fun_prop) ⟨by norm_num, by norm_num⟩
  (by norm_num) (by norm_num) case_inLibrary' caseSpectra_library case_covered (by fun_prop) case_ab_pos.ne' (caseSpectra_flux (by fun_prop) case_inLibrary' case_covered) 0.3 (-1) 0 0.7
  (ε := 1 / 100) (by norm_num)
example := C157_rest_mag_met_history (S := fun x => 1 + x) (T := 13.8) (sfr_min := 1e-14) (Tr := fun _ => 1) (by norm_num) (by norm_num) (by fun_prop) case_lin_cont ⟨by norm_num, by norm_num⟩
  (by norm_num) (by norm_num) case_inLibrary caseSpectra_library case_covered0 (by fun_prop) case_ab_pos.ne' (caseSpectra_flux case_lin_cont case_inLibrary case_covered0)
  (ε := 1 / 100) (by norm_num)
example := C157_rest_mag_lognormal (S := fun x => 1 + x) (T := 13.8) (sfr_min := 1e-14) (Tr := fun _ => 1) (by norm_num) (by norm_num) (by fun_prop) ⟨by norm_num, by norm_num⟩
  (by norm_num) (by norm_num) case_inLibrary' caseSpectra_library case_covered0 (by fun_prop) case_ab_pos.ne' (caseSpectra_flux (by fun_prop) case_inLibrary' case_covered0)
  (ε := 1 / 100) (by norm_num)
end

end Dsps.Props
