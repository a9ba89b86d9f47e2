import Verif.Props.RefineSed
import Verif.Props.MetShift

/-! C156: refining the SSP grids.  The spectra computed from an SSP library tabulated on grids of metallicity and age, and from a tabulated star formation
history, approach the stellar population synthesis integral over birth time and metallicity
(`/repo/dsps/sed/stellar_sed.py`, `/repo/dsps/sed/ssp_weights.py`, `/repo/dsps/sed/stellar_age_weights.py`, `/repo/dsps/sed/metallicity_weights.py`). -/
namespace Dsps.Props
open Dsps.Utils Dsps.Lemmas Dsps.StellarAgeWeights Dsps.MetallicityWeights Dsps.SspWeights Dsps.Constants Jnp Spec Set Sfh Filter Topology
open scoped BigOperators

variable {n m k w : ℕ} {S Z : ℝ → ℝ} {sfr_min T t_obs : ℝ}

/-! **Specification.** the stellar population synthesis integral.  `F u x` is the luminosity (at some wavelength) of one solar mass of stars of log10
metallicity `u` and log10 age `x` -/
namespace Sfh
/-- mean luminosity of stars of log10 age `x` whose log10 metallicities are distributed about `μ` with scatter `σ` (triweight density) -/
noncomputable def metMean (F : ℝ → ℝ → ℝ) (μ σ x : ℝ) : ℝ := ∫ v in (-3:ℝ)..3, 35 / 96 * (1 - v ^ 2 / 9) ^ 3 * F (μ + σ * v) x

/-- luminosity at time `t_obs` (Gyr) of the stars born between `τ₀` and `τ₁`: at time `τ` stars form at the rate `S τ` Msun/yr (but at least `1e-14`), with
log10 metallicities distributed about `Z τ` -/
noncomputable def light (S Z : ℝ → ℝ) (t_obs σ : ℝ) (F : ℝ → ℝ → ℝ) (τ₀ τ₁ : ℝ) : ℝ :=
  1e9 * ∫ τ in τ₀..τ₁, max 1e-14 (S τ) * metMean F (Z τ) σ (log10 (t_obs - τ))

/-- luminosity per solar mass of the stars born between `τ₀` and `τ₁` -/
noncomputable def meanLight (S Z : ℝ → ℝ) (t_obs σ : ℝ) (F : ℝ → ℝ → ℝ) (τ₀ τ₁ : ℝ) : ℝ :=
  light S Z t_obs σ F τ₀ τ₁ / (mass S 1e-14 τ₁ - mass S 1e-14 τ₀)

/-- between metallicities in `[z₀, z₁]` at most `δz` apart and log10 ages up to `x₁` at most `δx` apart, the luminosity changes by at most `ω` -/
def Gradual (F : ℝ → ℝ → ℝ) (z₀ z₁ x₁ δz δx ω : ℝ) : Prop :=
  ∀ u ∈ Icc z₀ z₁, ∀ u' ∈ Icc z₀ z₁, ∀ x ≤ x₁, ∀ x' ≤ x₁, |u - u'| ≤ δz → |x - x'| ≤ δx → |F u x - F u' x'| ≤ ω

/-- the metallicity changes by at most `δ` between the births of stars of the same age bin of the grid `a` -/
def Steady (Z : ℝ → ℝ) (t_obs δ : ℝ) (a : Fin (n + 3) → ℝ) : Prop :=
  ∀ j : Fin (n + 3), ∀ τ, birthTime t_obs (get_lg_age_bin_edges a j.succ) ≤ τ → τ < birthTime t_obs (get_lg_age_bin_edges a j.castSucc) →
    |Z (birthTime t_obs (a j)) - Z τ| ≤ δ

/-- no two neighbours in the grid are further apart than `δ` -/
def GridMesh (δ : ℝ) (z : Fin (n + 3) → ℝ) : Prop := ∀ i : Fin (n + 2), z i.succ - z i.castSucc ≤ δ
end Sfh

/-! ## metallicity -/

/-- the kernel average over the weights' bins versus the kernel average -/
lemma met_grid {μ σ δ ω : ℝ} {z : Fin (k + 3) → ℝ} {g : ℝ → ℝ} (hσ : 0 < σ) (hz : MildlySpaced z) (hlo : -10 < z 0) (hhi : z (Fin.last (k + 2)) < 10)
    (hδ : GridMesh δ z) (h0 : z 0 ≤ μ - 3 * σ) (h1 : μ + 3 * σ ≤ z (Fin.last (k + 2))) (hg : Continuous g)
    (hω : ∀ u ∈ Icc (z 0) (z (Fin.last (k + 2))), ∀ u' ∈ Icc (z 0) (z (Fin.last (k + 2))), |u - u'| ≤ δ → |g u - g u'| ≤ ω) :
    |∑ i, calc_lgmet_weights_from_lognormal_mdf μ σ z i * g (z i) - ∫ u in (μ - 3 * σ)..(μ + 3 * σ), g u * triweight_gaussian u μ σ| ≤ ω := by
  set e := get_bin_edges z LGMET_LO LGMET_HI with he
  have hem := lgmet_edges_mono z hz hlo hhi
  have hbr := (C05_edges_bracket_partial z hz LGMET_LO LGMET_HI (by norm_num [LGMET_LO]; exact hlo) (by norm_num [LGMET_HI]; exact hhi)).2
  have tot := weight_inside (z := z) hσ (by linarith : -10 ≤ μ - 3 * σ) (by linarith)
  have hcont := continuous_triweight_gaussian μ σ
  have hw : ∀ i, calc_lgmet_weights_from_lognormal_mdf μ σ z i = ∫ u in (e i.castSucc)..(e i.succ), triweight_gaussian u μ σ := fun i => by
    have := C04_triweights_overlap μ σ hσ e (by rw [tot]; norm_num) i
    rw [tot, div_one] at this
    exact this
  have hmu : ∫ u in (μ - 3 * σ)..(μ + 3 * σ), g u * triweight_gaussian u μ σ = ∑ i : Fin (k + 3), ∫ u in (e i.castSucc)..(e i.succ), g u * triweight_gaussian u μ σ := by
    rw [sum_adjacent (g := fun u => g u * triweight_gaussian u μ σ) (hg.mul hcont), he, (C05_edges_limits z LGMET_LO LGMET_HI).1, (C05_edges_limits z LGMET_LO LGMET_HI).2]
    exact (integral_support (g := g) hσ (by norm_num [LGMET_LO]; linarith) (by norm_num [LGMET_HI]; linarith) hg).symm
  have h2 : ∑ i, calc_lgmet_weights_from_lognormal_mdf μ σ z i * g (z i) - ∫ u in (μ - 3 * σ)..(μ + 3 * σ), g u * triweight_gaussian u μ σ =
      ∑ i : Fin (k + 3), ∫ u in (e i.castSucc)..(e i.succ), (g (z i) - g u) * triweight_gaussian u μ σ := by
    rw [hmu, ← Finset.sum_sub_distrib]
    refine Finset.sum_congr rfl fun i _ => ?_
    rw [hw, mul_comm, ← intervalIntegral.integral_const_mul, ← intervalIntegral.integral_sub (f := fun u => g (z i) * triweight_gaussian u μ σ) (g := fun u => g u * triweight_gaussian u μ σ) ((continuous_const.mul hcont).intervalIntegrable _ _) ((hg.mul hcont).intervalIntegrable _ _)]
    exact intervalIntegral.integral_congr fun u _ => by ring
  rw [h2]
  have hs : ∑ i, calc_lgmet_weights_from_lognormal_mdf μ σ z i = 1 := (C21_lgmet_weights_prob_mild_partial μ σ hσ z hz hlo hhi).2
  calc _ ≤ ∑ i : Fin (k + 3), |∫ u in (e i.castSucc)..(e i.succ), (g (z i) - g u) * triweight_gaussian u μ σ| := Finset.abs_sum_le_sum_abs _ _
    _ ≤ ∑ i : Fin (k + 3), ω * calc_lgmet_weights_from_lognormal_mdf μ σ z i := Finset.sum_le_sum fun i _ => ?_
    _ = ω := by rw [← Finset.mul_sum, hs, mul_one]
  have hle : e i.castSucc ≤ e i.succ := (hem (Fin.castSucc_lt_succ (i := i))).le
  have hzi : z i ∈ Icc (z 0) (z (Fin.last (k + 2))) := ⟨hz.1.monotone (Fin.zero_le i), hz.1.monotone (Fin.le_last i)⟩
  have pt : ∀ u ∈ Icc (e i.castSucc) (e i.succ), |g (z i) - g u| * triweight_gaussian u μ σ ≤ ω * triweight_gaussian u μ σ := fun u hu => by
    have nn := (C02_triweight_density μ σ hσ).1 u
    by_cases hsup : 3 * σ < |u - μ|
    · rw [(C02_triweight_density μ σ hσ).2.1 u hsup]; simp
    have hab := abs_le.mp (not_lt.mp hsup)
    refine mul_le_mul_of_nonneg_right (hω _ hzi _ ⟨by linarith, by linarith⟩ (abs_le.mpr ⟨?_, ?_⟩)) nn
    · rcases Fin.eq_castSucc_or_eq_last i with ⟨j, rfl⟩ | rfl
      · have a1 := (hbr j.succ).1
        rw [← Fin.succ_castSucc] at a1
        linarith [hδ j, hu.2]
      · have := hδ (Fin.last (k + 1))
        rw [Fin.succ_last] at this
        have m := hz.1.monotone (Fin.castSucc_lt_succ (i := Fin.last (k + 1))).le
        rw [Fin.succ_last] at m
        linarith
    · rcases Fin.eq_zero_or_eq_succ i with rfl | ⟨j, rfl⟩
      · have := hδ 0
        have m := hz.1.monotone (Fin.castSucc_lt_succ (i := (0 : Fin (k + 2)))).le
        simp only [Fin.castSucc_zero] at m this
        linarith
      · have a1 := (hbr j.castSucc).2
        rw [Fin.succ_castSucc] at a1
        linarith [hδ j, hu.1]
  calc _ ≤ ∫ u in (e i.castSucc)..(e i.succ), |g (z i) - g u| * triweight_gaussian u μ σ := by
        refine (intervalIntegral.abs_integral_le_integral_abs hle).trans_eq (intervalIntegral.integral_congr fun u _ => ?_)
        show |(g (z i) - g u) * triweight_gaussian u μ σ| = _
        rw [abs_mul, abs_of_nonneg ((C02_triweight_density μ σ hσ).1 u)]
    _ ≤ ∫ u in (e i.castSucc)..(e i.succ), ω * triweight_gaussian u μ σ :=
        intervalIntegral.integral_mono_on hle ((((continuous_const.sub hg).abs).mul hcont).intervalIntegrable _ _) ((continuous_const.mul hcont).intervalIntegrable _ _) pt
    _ = _ := by rw [intervalIntegral.integral_const_mul, ← hw]

/-- the specification's metallicity average is the average over the package's metallicity density -/
lemma metMean_eq {F : ℝ → ℝ → ℝ} {μ σ x : ℝ} (hσ : 0 < σ) :
    metMean F μ σ x = ∫ u in (μ - 3 * σ)..(μ + 3 * σ), F u x * triweight_gaussian u μ σ := by
  have h := intervalIntegral.integral_comp_mul_add (a := -3) (b := 3) (fun u => σ * (F u x * triweight_gaussian u μ σ)) hσ.ne' μ
  rw [show σ * -3 + μ = μ - 3 * σ by ring, show σ * 3 + μ = μ + 3 * σ by ring, intervalIntegral.integral_const_mul (f := fun u => F u x * triweight_gaussian u μ σ) (a := μ - 3 * σ), smul_eq_mul, inv_mul_cancel_left₀ hσ.ne'] at h
  rw [← h]
  unfold metMean
  refine intervalIntegral.integral_congr fun v hv => ?_
  rw [uIcc_of_le (by norm_num)] at hv
  show _ = σ * (F (σ * v + μ) x * triweight_gaussian (σ * v + μ) μ σ)
  rw [(C02_triweight_density μ σ hσ).2.2.2 _ (by rw [add_sub_cancel_right, abs_le]; constructor <;> nlinarith [hv.1, hv.2]), add_sub_cancel_right, add_comm (σ * v) μ]
  field_simp

lemma metKernel_nonneg {v : ℝ} (hv : v ∈ Icc (-3:ℝ) 3) : 0 ≤ 35 / 96 * (1 - v ^ 2 / 9) ^ 3 := by
  have : 0 ≤ 1 - v ^ 2 / 9 := by nlinarith [hv.1, hv.2]
  positivity

lemma metKernel_one : ∫ v in (-3:ℝ)..3, 35 / 96 * (1 - v ^ 2 / 9) ^ 3 = (1:ℝ) := by
  have h : ∀ v : ℝ, HasDerivAt (fun v : ℝ => 35 / 96 * (v - v ^ 3 / 9 + v ^ 5 / 135 - v ^ 7 / 5103)) (35 / 96 * (1 - v ^ 2 / 9) ^ 3) v := fun v => by
    have := (((((hasDerivAt_id v).sub ((hasDerivAt_pow 3 v).div_const 9)).add ((hasDerivAt_pow 5 v).div_const 135)).sub ((hasDerivAt_pow 7 v).div_const 5103)).const_mul (35 / 96 : ℝ))
    refine this.congr_deriv ?_
    norm_num; ring
  rw [intervalIntegral.integral_eq_sub_of_hasDerivAt (fun v _ => h v) (Continuous.intervalIntegrable (by fun_prop) _ _)]
  norm_num

/-- averages over the kernel of close functions are close -/
lemma metMean_near {F : ℝ → ℝ → ℝ} {μ μ' σ x x' ω : ℝ} (hF : Continuous fun p : ℝ × ℝ => F p.1 p.2)
    (h : ∀ v ∈ Icc (-3:ℝ) 3, |F (μ + σ * v) x - F (μ' + σ * v) x'| ≤ ω) : |metMean F μ σ x - metMean F μ' σ x'| ≤ ω := by
  have c : ∀ μ x : ℝ, Continuous fun v : ℝ => 35 / 96 * (1 - v ^ 2 / 9) ^ 3 * F (μ + σ * v) x := fun μ x =>
    (by fun_prop : Continuous fun v : ℝ => 35 / 96 * (1 - v ^ 2 / 9) ^ 3).mul (hF.comp (by fun_prop : Continuous fun v : ℝ => (μ + σ * v, x)))
  unfold metMean
  rw [← intervalIntegral.integral_sub ((c μ x).intervalIntegrable _ _) ((c μ' x').intervalIntegrable _ _)]
  calc _ ≤ ∫ v in (-3:ℝ)..3, |35 / 96 * (1 - v ^ 2 / 9) ^ 3 * F (μ + σ * v) x - 35 / 96 * (1 - v ^ 2 / 9) ^ 3 * F (μ' + σ * v) x'| :=
        intervalIntegral.abs_integral_le_integral_abs (by norm_num)
    _ ≤ ∫ v in (-3:ℝ)..3, ω * (35 / 96 * (1 - v ^ 2 / 9) ^ 3) := by
        refine intervalIntegral.integral_mono_on (by norm_num) (((c μ x).sub (c μ' x')).abs.intervalIntegrable _ _) (Continuous.intervalIntegrable (by fun_prop) _ _) fun v hv => ?_
        have nn := metKernel_nonneg hv
        rw [← mul_sub, abs_mul, abs_of_nonneg nn, mul_comm ω]
        exact mul_le_mul_of_nonneg_left (h v hv) nn
    _ = ω := by rw [intervalIntegral.integral_const_mul, metKernel_one, mul_one]

lemma metMean_continuous {F : ℝ → ℝ → ℝ} {σ : ℝ} (hF : Continuous fun p : ℝ × ℝ => F p.1 p.2) : Continuous fun p : ℝ × ℝ => metMean F p.1 σ p.2 := by
  unfold metMean
  refine intervalIntegral.continuous_parametric_intervalIntegral_of_continuous' ?_ _ _
  exact (by fun_prop : Continuous fun q : (ℝ × ℝ) × ℝ => 35 / 96 * (1 - q.2 ^ 2 / 9) ^ 3).mul (hF.comp (by fun_prop : Continuous fun q : (ℝ × ℝ) × ℝ => (q.1.1 + σ * q.2, q.1.2)))

/-! ## age -/

/-- every bin of the age grid reaches at most one grid spacing from its age -/
lemma age_bin_width {a : Fin (m + 3) → ℝ} {δ : ℝ} (ha : MildlySpaced a) (hδ : GridMesh δ a) (j : Fin (m + 3)) :
    get_lg_age_bin_edges a j.castSucc < a j ∧ a j < get_lg_age_bin_edges a j.succ ∧ a j - δ ≤ get_lg_age_bin_edges a j.castSucc ∧
    get_lg_age_bin_edges a j.succ ≤ a j + δ := by
  have hs : a 0 < a 1 := ha.1 (by simp)
  have hbr := (C05_edges_bracket_partial a ha (a 0 - (a 1 - a 0) / 2) (a (Fin.last (m + 2)) + jax_get_dt_array a (Fin.last (m + 2)) / 2) (by linarith)
    (by linarith [C06_widths_pos a ha.1 (Fin.last (m + 2))])).2
  rw [lg_age_edges_eq]
  have d0 := hδ 0
  simp only [Fin.castSucc_zero, Fin.succ_zero_eq_one] at d0
  refine ⟨(hbr j).1, (hbr j).2, ?_, ?_⟩
  · rcases Fin.eq_zero_or_eq_succ j with rfl | ⟨i, rfl⟩
    · rw [Fin.castSucc_zero, edges_zero]; linarith
    · have a1 := (hbr i.castSucc).2
      rw [Fin.succ_castSucc] at a1
      linarith [hδ i]
  · rcases Fin.eq_castSucc_or_eq_last j with ⟨i, rfl⟩ | rfl
    · have a1 := (hbr i.succ).1
      rw [← Fin.succ_castSucc] at a1
      linarith [hδ i]
    · rw [Fin.succ_last, edges_last, dt_last]
      have d1 := hδ (Fin.last (m + 1))
      have d2 := hδ (Fin.last m).castSucc
      rw [Fin.succ_last] at d1
      rw [Fin.succ_castSucc, Fin.succ_last] at d2
      linarith

/-- stars born strictly between the birth times of two ages have an age in between -/
lemma age_between {x y τ : ℝ} (h0 : birthTime t_obs y ≤ τ) (h1 : τ < birthTime t_obs x) : τ < t_obs ∧ x ≤ log10 (t_obs - τ) ∧ log10 (t_obs - τ) ≤ y := by
  have a0 : t_obs - (10:ℝ) ^ y ≤ τ := (le_max_right _ _).trans h0
  have a1 : τ < t_obs - (10:ℝ) ^ x := by
    rcases lt_max_iff.mp h1 with h | h
    · exact absurd ((le_max_left _ _).trans h0) (not_le.mpr h)
    · exact h
  have px : (0:ℝ) < (10:ℝ) ^ x := by positivity
  refine ⟨by linarith, ?_, ?_⟩
  · exact (Real.le_logb_iff_rpow_le (by norm_num) (by linarith)).mpr (by linarith)
  · exact (Real.logb_le_iff_le_rpow (by norm_num) (by linarith)).mpr (by linarith)

/-- sums of integrals over adjacent intervals, last to first -/
lemma sum_adjacent' {f : ℝ → ℝ} {b : Fin (n + 1) → ℝ} {c d : ℝ} (hf : ContinuousOn f (Icc c d)) (hb : ∀ i, b i ∈ Icc c d) :
    ∑ i : Fin n, ∫ u in (b i.succ)..(b i.castSucc), f u = ∫ u in (b (Fin.last n))..(b 0), f u := by
  have ii : ∀ x ∈ Icc c d, ∀ y ∈ Icc c d, IntervalIntegrable f MeasureTheory.volume x y := fun x hx y hy => (hf.mono (uIcc_subset_Icc hx hy)).intervalIntegrable
  have h : ∀ x ∈ Icc c d, ∀ y ∈ Icc c d, ∫ u in x..y, f u = (∫ u in (b 0)..y, f u) - ∫ u in (b 0)..x, f u := fun x hx y hy =>
    (intervalIntegral.integral_interval_sub_left (ii _ (hb 0) _ hy) (ii _ (hb 0) _ hx)).symm
  rw [h _ (hb _) _ (hb _), Finset.sum_congr rfl fun i _ => h _ (hb i.succ) _ (hb i.castSucc)]
  exact sum_telescope' (fun i => ∫ u in (b 0)..(b i), f u)

/-- a weighted sum over bins versus the integral -/
lemma bins_near {q H : ℝ → ℝ} {b : Fin (n + 1) → ℝ} {G : Fin n → ℝ} {c d ω : ℝ} (hq : ContinuousOn q (Icc c d)) (hH : ContinuousOn H (Icc c d))
    (hb : ∀ i, b i ∈ Icc c d) (hanti : Antitone b) (hq0 : ∀ x ∈ Icc c d, 0 ≤ q x) (h : ∀ j, ∀ τ, b j.succ ≤ τ → τ < b j.castSucc → |G j - H τ| ≤ ω) :
    |∑ j, (∫ τ in (b j.succ)..(b j.castSucc), q τ) * G j - ∫ τ in (b (Fin.last n))..(b 0), q τ * H τ| ≤ ω * ∫ τ in (b (Fin.last n))..(b 0), q τ := by
  have ii : ∀ f : ℝ → ℝ, ContinuousOn f (Icc c d) → ∀ i j, IntervalIntegrable f MeasureTheory.volume (b i) (b j) := fun f hf i j =>
    (hf.mono (uIcc_subset_Icc (hb i) (hb j))).intervalIntegrable
  rw [← sum_adjacent' (f := fun τ => q τ * H τ) (hq.mul hH) hb, ← sum_adjacent' hq hb, ← Finset.sum_sub_distrib, Finset.mul_sum]
  refine (Finset.abs_sum_le_sum_abs _ _).trans (Finset.sum_le_sum fun j _ => ?_)
  have hle : b j.succ ≤ b j.castSucc := hanti (Fin.castSucc_lt_succ (i := j)).le
  have hsub : ∀ τ, b j.succ ≤ τ → τ < b j.castSucc → τ ∈ Icc c d := fun τ h0 h1 => ⟨(hb _).1.trans h0, h1.le.trans (hb _).2⟩
  rw [← intervalIntegral.integral_mul_const, ← intervalIntegral.integral_sub (f := fun τ => q τ * G j) (g := fun τ => q τ * H τ) (ii _ (hq.mul continuousOn_const) _ _) (ii _ (hq.mul hH) _ _), ← intervalIntegral.integral_const_mul]
  refine (intervalIntegral.abs_integral_le_integral_abs hle).trans ?_
  refine intervalIntegral.integral_mono_on_of_le_Ioo hle (ii _ ((hq.mul continuousOn_const).sub (hq.mul hH)).abs _ _) (ii _ (continuousOn_const.mul hq) _ _) fun τ hτ => ?_
  have nn := hq0 τ (hsub τ hτ.1.le hτ.2)
  rw [← mul_sub, abs_mul, abs_of_nonneg nn, mul_comm ω]
  exact mul_le_mul_of_nonneg_left (h j τ hτ.1.le hτ.2) nn

/-! ## the synthesis integral -/

lemma log_age_continuousOn {b : ℝ} (hb : b < t_obs) : ContinuousOn (fun τ => log10 (t_obs - τ)) (Icc 0.001 b) := by
  intro τ hτ
  have : t_obs - τ ≠ 0 := by have := hτ.2; intro h; linarith
  have h : ContinuousAt (fun τ => log10 (t_obs - τ)) τ := by
    show ContinuousAt (fun τ => Real.log (t_obs - τ) / Real.log 10) τ
    exact ((continuousAt_const.sub continuousAt_id).log this).div_const _
  exact h.continuousWithinAt

lemma meanLight_integrand {F : ℝ → ℝ → ℝ} {σ b : ℝ} (hZ : ContinuousOn Z (Icc 0.001 T)) (hF : Continuous fun p : ℝ × ℝ => F p.1 p.2) (hb : b < t_obs) (hT : b ≤ T) :
    ContinuousOn (fun τ => metMean F (Z τ) σ (log10 (t_obs - τ))) (Icc 0.001 b) :=
  (metMean_continuous (σ := σ) hF).comp_continuousOn ((hZ.mono (Icc_subset_Icc le_rfl hT)).prodMk (log_age_continuousOn hb))

section
variable {a : Fin (m + 3) → ℝ} {z : Fin (k + 3) → ℝ} {F : ℝ → ℝ → ℝ} {σ δz δx ω : ℝ}

/-- C156: **the error of the SSP grids**.  For every star formation and metallicity history and every library of spectra changing by at most `ω` from one
grid point to the next, the spectrum with the exact share of the mass in each age bin is within `2ω` (per unit of mass) of the synthesis integral over the
stars of the age grid. -/
theorem C156_grid_error (hσ : 0 < σ) (hS : ContinuousOn S (Icc 0.001 T)) (hZ : ContinuousOn Z (Icc 0.001 T)) (hobs : t_obs ∈ Icc 0.001 T)
    (ha : MildlySpaced a) (hδa : GridMesh δx a) (hz : MildlySpaced z) (hδz : GridMesh δz z) (hlo : -10 < z 0) (hhi : z (Fin.last (k + 2)) < 10)
    (hcov : ∀ τ ∈ Icc 0.001 t_obs, z 0 ≤ Z τ - 3 * σ ∧ Z τ + 3 * σ ≤ z (Fin.last (k + 2))) (hF : Continuous fun p : ℝ × ℝ => F p.1 p.2)
    (hω : Gradual F (z 0) (z (Fin.last (k + 2))) (get_lg_age_bin_edges a (Fin.last (m + 3))) δz δx ω) (hZv : Steady Z t_obs δz a) (hpos : Populated S t_obs a) :
    |∑ i, ∑ j, calc_lgmet_weights_from_lognormal_mdf (Z (birthTime t_obs (a j))) σ z i * binShare S t_obs a j * F (z i) (a j) -
      meanLight S Z t_obs σ F (birthTime t_obs (get_lg_age_bin_edges a (Fin.last (m + 3)))) (birthTime t_obs (get_lg_age_bin_edges a 0))| ≤ 2 * ω := by
  set e := get_lg_age_bin_edges a with he
  have em : StrictMono e := C17_age_edges_mono a ha
  have hw := age_bin_width ha hδa
  set b : Fin (m + 4) → ℝ := fun i => birthTime t_obs (e i) with hb
  have bT : ∀ x, birthTime t_obs x ∈ Icc 0.001 T := fun x => birth_mem hobs.1 hobs.2
  have banti : Antitone b := fun i j h => birthTime_anti t_obs (em.monotone h)
  have hobs' : 0.001 < t_obs := by
    have := ((C140_populated_iff hS hobs).mp hpos).2
    have p : (0:ℝ) < (10:ℝ) ^ get_lg_age_bin_edges a 0 := by positivity
    linarith
  have bt : ∀ x, birthTime t_obs x < t_obs := fun x => max_lt hobs' (by have : (0:ℝ) < (10:ℝ) ^ x := by positivity
                                                                        linarith)
  have bI : ∀ i, b i ∈ Icc 0.001 (b 0) := fun i => ⟨(bT _).1, banti (Fin.zero_le i)⟩
  have hδx0 : 0 ≤ δx := by have := hw 0; linarith [this.1, this.2.2.1]
  have hδz0 : 0 ≤ δz := by
    have := hδz 0
    have m := hz.1.monotone (Fin.castSucc_lt_succ (i := (0 : Fin (k + 2)))).le
    linarith
  have eL : ∀ j, a j ≤ e (Fin.last (m + 3)) := fun j => (hw j).2.1.le.trans (em.monotone (Fin.le_last _))
  -- one age bin
  have hG : ∀ j : Fin (m + 3), ∀ τ, b j.succ ≤ τ → τ < b j.castSucc →
      |∑ i, calc_lgmet_weights_from_lognormal_mdf (Z (birthTime t_obs (a j))) σ z i * F (z i) (a j) - metMean F (Z τ) σ (log10 (t_obs - τ))| ≤ 2 * ω := by
    intro j τ h0 h1
    have cj := hcov _ ⟨(bT (a j)).1, (bt (a j)).le⟩
    have cτ := hcov τ ⟨(bT _).1.trans h0, h1.le.trans (bt _).le⟩
    obtain ⟨-, x0, x1⟩ := age_between h0 h1
    have s1 := met_grid (g := fun u => F u (a j)) (ω := ω) hσ hz hlo hhi hδz cj.1 cj.2 (hF.comp (by fun_prop : Continuous fun u : ℝ => (u, a j)))
      (fun u hu u' hu' h => hω u hu u' hu' _ (eL j) _ (eL j) h (by simpa using hδx0))
    rw [← metMean_eq hσ] at s1
    have s2 : |metMean F (Z (birthTime t_obs (a j))) σ (a j) - metMean F (Z τ) σ (log10 (t_obs - τ))| ≤ ω := by
      refine metMean_near hF fun v hv => ?_
      have e1 : |σ * v| ≤ 3 * σ := by rw [abs_le]; constructor <;> nlinarith [hv.1, hv.2]
      have e2 := abs_le.mp e1
      refine hω _ ⟨by linarith, by linarith⟩ _ ⟨by linarith, by linarith⟩ _ (eL j) _ (x1.trans (em.monotone (Fin.le_last _))) ?_ ?_
      · rw [add_sub_add_right_eq_sub]
        exact hZv j τ h0 h1
      · rw [abs_le]
        constructor <;> linarith [(hw j).2.2.1, (hw j).2.2.2]
    calc _ ≤ _ := abs_sub_le _ _ _
      _ ≤ ω + ω := add_le_add s1 s2
      _ = 2 * ω := by ring
  have key := bins_near (q := fun τ => max 1e-14 (S τ)) (b := b) (floor_cont (sfr_min := 1e-14) (hS.mono (Icc_subset_Icc le_rfl (bT (e 0)).2))) (meanLight_integrand (σ := σ) hZ hF (bt (e 0)) (bT (e 0)).2) bI banti
    (fun x _ => le_max_of_le_left (by norm_num)) hG
  have hD : mass S 1e-14 (b 0) - mass S 1e-14 (b (Fin.last (m + 3))) = 1e9 * ∫ τ in (b (Fin.last (m + 3)))..(b 0), max 1e-14 (S τ) := mass_sub hS (bT _) (bT _)
  have hDp : 0 < mass S 1e-14 (b 0) - mass S 1e-14 (b (Fin.last (m + 3))) := sub_pos.mpr hpos
  set Q := ∫ τ in (b (Fin.last (m + 3)))..(b 0), max 1e-14 (S τ) with hQ
  have hQp : 0 < Q := by rw [hD] at hDp; exact (pos_iff_pos_of_mul_pos hDp).mp (by norm_num)
  have hsh : ∀ j, binShare S t_obs a j = (∫ τ in (b j.succ)..(b j.castSucc), max 1e-14 (S τ)) / Q := fun j => by
    unfold binShare share
    rw [show mass S 1e-14 (birthTime t_obs (get_lg_age_bin_edges a j.castSucc)) - mass S 1e-14 (birthTime t_obs (get_lg_age_bin_edges a j.succ)) = _ from mass_sub hS (bT _) (bT _)]
    show _ / (mass S 1e-14 (b 0) - mass S 1e-14 (b (Fin.last (m + 3)))) = _
    rw [hD]
    exact mul_div_mul_left _ _ (by norm_num)
  have lhs : ∑ i, ∑ j, calc_lgmet_weights_from_lognormal_mdf (Z (birthTime t_obs (a j))) σ z i * binShare S t_obs a j * F (z i) (a j) =
      (∑ j, (∫ τ in (b j.succ)..(b j.castSucc), max 1e-14 (S τ)) * ∑ i, calc_lgmet_weights_from_lognormal_mdf (Z (birthTime t_obs (a j))) σ z i * F (z i) (a j)) / Q := by
    rw [Finset.sum_comm, Finset.sum_div]
    refine Finset.sum_congr rfl fun j _ => ?_
    rw [hsh, Finset.mul_sum, Finset.sum_div]
    exact Finset.sum_congr rfl fun i _ => by ring
  have rhs : meanLight S Z t_obs σ F (birthTime t_obs (e (Fin.last (m + 3)))) (birthTime t_obs (e 0)) =
      (∫ τ in (b (Fin.last (m + 3)))..(b 0), max 1e-14 (S τ) * metMean F (Z τ) σ (log10 (t_obs - τ))) / Q := by
    unfold meanLight light
    rw [show mass S 1e-14 (birthTime t_obs (e 0)) - mass S 1e-14 (birthTime t_obs (e (Fin.last (m + 3)))) = _ from hD]
    exact mul_div_mul_left _ _ (by norm_num)
  rw [lhs, rhs, ← sub_div, abs_div, abs_of_pos hQp, div_le_iff₀ hQp]
  exact key

/-- C156: the same for the spectra the package computes from tables of the histories: for every such library there are tables from which on the SED is
within twice the change of the library between grid points (times the mass formed) of the synthesis integral, up to any `ε`. -/
theorem C156_sed_met_history [Dtype] {F : Fin w → ℝ → ℝ → ℝ} (hs : 0 < sfr_min) (hσ : 0 < σ) (hS : ContinuousOn S (Icc 0.001 T)) (hZ : ContinuousOn Z (Icc 0.001 T))
    (hobs : t_obs ∈ Icc 0.001 T) (ha : MildlySpaced a) (hδa : GridMesh δx a) (hz : MildlySpaced z) (hδz : GridMesh δz z) (hlo : -10 < z 0)
    (hhi : z (Fin.last (k + 2)) < 10) (hcov : ∀ τ ∈ Icc 0.001 t_obs, z 0 ≤ Z τ - 3 * σ ∧ Z τ + 3 * σ ≤ z (Fin.last (k + 2))) (l : Fin w)
    (hF : Continuous fun p : ℝ × ℝ => F l p.1 p.2) (hω : Gradual (F l) (z 0) (z (Fin.last (k + 2))) (get_lg_age_bin_edges a (Fin.last (m + 3))) δz δx ω)
    (hZv : Steady Z t_obs δz a) (hpos : Populated S t_obs a) {ε : ℝ} (hε : 0 < ε) :
    ∃ δ > 0, ∀ (n : ℕ) (t : Fin (n + 2) → ℝ), StrictMono t → 0.001 < t 0 → t (Fin.last (n + 1)) = T → Mesh δ t →
      |(calc_rest_sed_sfh_table_met_table t (fun i => S (t i)) (fun i => Z (t i)) σ z a (fun i j l => F l (z i) (a j)) t_obs sfr_min).rest_sed l -
        mass S sfr_min t_obs * meanLight S Z t_obs σ (F l) (birthTime t_obs (get_lg_age_bin_edges a (Fin.last (m + 3)))) (birthTime t_obs (get_lg_age_bin_edges a 0))|
      ≤ mass S sfr_min t_obs * (2 * ω) + ε := by
  obtain ⟨δ, hδ, h⟩ := C140_sed_met_history_converges (flux := fun i j l => F l (z i) (a j)) hs hS hZ hobs (C17_age_edges_mono a ha).monotone hpos hσ hz hlo hhi l hε
  refine ⟨δ, hδ, fun n t h1 h2 h3 h4 => ?_⟩
  have g := C156_grid_error hσ hS hZ hobs ha hδa hz hδz hlo hhi hcov hF hω hZv hpos
  have mn : 0 ≤ mass S sfr_min t_obs := by
    have := intervalIntegral.integral_nonneg (μ := MeasureTheory.volume) hobs.1 fun x (_ : x ∈ Icc 0.001 t_obs) => hs.le.trans (le_max_left sfr_min (S x))
    unfold mass; positivity
  refine (abs_sub_le _ _ _).trans ((add_le_add (h n t h1 h2 h3 h4) ?_).trans_eq (add_comm _ _))
  unfold sed
  rw [← mul_sub, abs_mul, abs_of_nonneg mn]
  exact mul_le_mul_of_nonneg_left g mn

/-- C156: the same with one metallicity distribution for all stars. -/
theorem C156_sed_lognormal [Dtype] {F : Fin w → ℝ → ℝ → ℝ} {μ : ℝ} (hs : 0 < sfr_min) (hσ : 0 < σ) (hS : ContinuousOn S (Icc 0.001 T))
    (hobs : t_obs ∈ Icc 0.001 T) (ha : MildlySpaced a) (hδa : GridMesh δx a) (hz : MildlySpaced z) (hδz : GridMesh δz z) (hlo : -10 < z 0)
    (hhi : z (Fin.last (k + 2)) < 10) (hcov : z 0 ≤ μ - 3 * σ ∧ μ + 3 * σ ≤ z (Fin.last (k + 2))) (l : Fin w)
    (hF : Continuous fun p : ℝ × ℝ => F l p.1 p.2) (hω : Gradual (F l) (z 0) (z (Fin.last (k + 2))) (get_lg_age_bin_edges a (Fin.last (m + 3))) δz δx ω)
    (hpos : Populated S t_obs a) {ε : ℝ} (hε : 0 < ε) :
    ∃ δ > 0, ∀ (n : ℕ) (t : Fin (n + 2) → ℝ), StrictMono t → 0.001 < t 0 → t (Fin.last (n + 1)) = T → Mesh δ t →
      |(calc_rest_sed_sfh_table_lognormal_mdf t (fun i => S (t i)) μ σ z a (fun i j l => F l (z i) (a j)) t_obs sfr_min).rest_sed l -
        mass S sfr_min t_obs * meanLight S (fun _ => μ) t_obs σ (F l) (birthTime t_obs (get_lg_age_bin_edges a (Fin.last (m + 3)))) (birthTime t_obs (get_lg_age_bin_edges a 0))|
      ≤ mass S sfr_min t_obs * (2 * ω) + ε := by
  obtain ⟨δ, hδ, h⟩ := C140_sed_converges (flux := fun i j l => F l (z i) (a j)) hs hS hobs (C17_age_edges_mono a ha).monotone hpos
    (C21_lgmet_weights_prob_mild_partial μ σ hσ z hz hlo hhi).2 l hε
  refine ⟨δ, hδ, fun n t h1 h2 h3 h4 => ?_⟩
  have hδz0 : 0 ≤ δz := by
    have := hδz 0
    have m := hz.1.monotone (Fin.castSucc_lt_succ (i := (0 : Fin (k + 2)))).le
    linarith
  have g := C156_grid_error (Z := fun _ => μ) hσ hS continuousOn_const hobs ha hδa hz hδz hlo hhi (fun _ _ => hcov) hF hω (fun j τ _ _ => by simpa using hδz0) hpos
  have mn : 0 ≤ mass S sfr_min t_obs := by
    have := intervalIntegral.integral_nonneg (μ := MeasureTheory.volume) hobs.1 fun x (_ : x ∈ Icc 0.001 t_obs) => hs.le.trans (le_max_left sfr_min (S x))
    unfold mass; positivity
  refine (abs_sub_le _ _ _).trans ((add_le_add (h n t h1 h2 h3 h4) ?_).trans_eq (add_comm _ _))
  unfold sed
  rw [← mul_sub, abs_mul, abs_of_nonneg mn]
  exact mul_le_mul_of_nonneg_left g mn

/-! ## stars outside the age grid -/

lemma metMean_bound {μ x B : ℝ} (hF : Continuous fun p : ℝ × ℝ => F p.1 p.2) (h : ∀ v ∈ Icc (-3:ℝ) 3, |F (μ + σ * v) x| ≤ B) : |metMean F μ σ x| ≤ B := by
  have c : Continuous fun v : ℝ => 35 / 96 * (1 - v ^ 2 / 9) ^ 3 * F (μ + σ * v) x :=
    (by fun_prop : Continuous fun v : ℝ => 35 / 96 * (1 - v ^ 2 / 9) ^ 3).mul (hF.comp (by fun_prop : Continuous fun v : ℝ => (μ + σ * v, x)))
  unfold metMean
  calc _ ≤ ∫ v in (-3:ℝ)..3, |35 / 96 * (1 - v ^ 2 / 9) ^ 3 * F (μ + σ * v) x| := intervalIntegral.abs_integral_le_integral_abs (by norm_num)
    _ ≤ ∫ v in (-3:ℝ)..3, B * (35 / 96 * (1 - v ^ 2 / 9) ^ 3) := by
        refine intervalIntegral.integral_mono_on (by norm_num) (c.abs.intervalIntegrable _ _) (Continuous.intervalIntegrable (by fun_prop) _ _) fun v hv => ?_
        have nn := metKernel_nonneg hv
        rw [abs_mul, abs_of_nonneg nn, mul_comm B]
        exact mul_le_mul_of_nonneg_left (h v hv) nn
    _ = B := by rw [intervalIntegral.integral_const_mul, metKernel_one, mul_one]

/-- integrals with bounded factors -/
lemma weighted_bound {q H : ℝ → ℝ} {c d B : ℝ} (hcd : c ≤ d) (hq : IntervalIntegrable q MeasureTheory.volume c d)
    (hqH : IntervalIntegrable (fun τ => q τ * H τ) MeasureTheory.volume c d) (hq0 : ∀ τ, 0 ≤ q τ) (hB : ∀ τ ∈ Ioo c d, |H τ| ≤ B) :
    |∫ τ in c..d, q τ * H τ| ≤ B * ∫ τ in c..d, q τ := by
  rw [← intervalIntegral.integral_const_mul]
  refine (intervalIntegral.abs_integral_le_integral_abs hcd).trans (intervalIntegral.integral_mono_on_of_le_Ioo hcd hqH.abs (hq.const_mul B) fun τ hτ => ?_)
  rw [abs_mul, abs_of_nonneg (hq0 τ), mul_comm B]
  exact mul_le_mul_of_nonneg_left (hB τ hτ) (hq0 τ)

/-- a bounded function continuous up to the end of the interval is integrable -/
lemma integrable_to_end {f : ℝ → ℝ} {c d B : ℝ} (hcd : c ≤ d) (hf : ContinuousOn f (Ioo c d)) (hB : ∀ τ ∈ Ioo c d, |f τ| ≤ B) :
    IntervalIntegrable f MeasureTheory.volume c d := by
  rw [intervalIntegrable_iff_integrableOn_Ioo_of_le hcd]
  refine MeasureTheory.IntegrableOn.of_bound (by simp) (hf.aestronglyMeasurable measurableSet_Ioo) B ?_
  filter_upwards [MeasureTheory.ae_restrict_mem measurableSet_Ioo] with τ hτ
  exact hB τ hτ

/-- C156: **stars outside the age grid**.  If no star is more luminous than `B` per unit of mass, leaving out the stars born before `τ₀` and after `τ₁` changes the mean
luminosity by at most `2B` times their share of the mass formed by `t_obs`. -/
theorem C156_outside {z₀ z₁ x₁ B τ₀ τ₁ : ℝ} (hσ : 0 < σ) (hS : ContinuousOn S (Icc 0.001 T)) (hZ : ContinuousOn Z (Icc 0.001 T)) (hT : t_obs ≤ T)
    (h0 : 0.001 ≤ τ₀) (h01 : τ₀ < τ₁) (h1 : τ₁ ≤ t_obs) (hcov : ∀ τ ∈ Icc 0.001 t_obs, z₀ ≤ Z τ - 3 * σ ∧ Z τ + 3 * σ ≤ z₁)
    (hx : log10 (t_obs - 0.001) ≤ x₁) (hF : Continuous fun p : ℝ × ℝ => F p.1 p.2) (hB : ∀ u ∈ Icc z₀ z₁, ∀ x ≤ x₁, |F u x| ≤ B) :
    |meanLight S Z t_obs σ F τ₀ τ₁ - meanLight S Z t_obs σ F 0.001 t_obs| ≤
      2 * B * (1 - (mass S 1e-14 τ₁ - mass S 1e-14 τ₀) / mass S 1e-14 t_obs) := by
  have q0 : ∀ τ, 0 ≤ max 1e-14 (S τ) := fun τ => le_max_of_le_left (by norm_num)
  have hm : ∀ τ ∈ Icc 0.001 t_obs, τ < t_obs → |metMean F (Z τ) σ (log10 (t_obs - τ))| ≤ B := fun τ hτ hlt => by
    refine metMean_bound hF fun v hv => hB _ ?_ _ ?_
    · have e1 : |σ * v| ≤ 3 * σ := by rw [abs_le]; constructor <;> nlinarith [hv.1, hv.2]
      have e2 := abs_le.mp e1
      have := hcov τ hτ
      exact ⟨by linarith, by linarith⟩
    · exact (Real.logb_le_logb_of_le (by norm_num) (by linarith) (by linarith [hτ.1])).trans hx
  have hqi : ∀ c ∈ Icc 0.001 t_obs, ∀ d ∈ Icc 0.001 t_obs, IntervalIntegrable (fun τ => max 1e-14 (S τ)) MeasureTheory.volume c d := fun c hc d hd =>
    floor_int hS ⟨hc.1, hc.2.trans hT⟩ ⟨hd.1, hd.2.trans hT⟩
  obtain ⟨A, hA⟩ : ∃ A, ∀ τ ∈ Icc 0.001 T, |max 1e-14 (S τ)| ≤ A := by
    obtain ⟨A, hA⟩ := isCompact_Icc.exists_bound_of_continuousOn (floor_cont (sfr_min := 1e-14) hS)
    exact ⟨A, hA⟩
  have hBn : 0 ≤ B := (abs_nonneg _).trans (hm τ₀ ⟨h0, by linarith⟩ (by linarith))
  have full : IntervalIntegrable (fun τ => max 1e-14 (S τ) * metMean F (Z τ) σ (log10 (t_obs - τ))) MeasureTheory.volume 0.001 t_obs := by
    refine integrable_to_end (B := A * B) (by linarith) ?_ ?_
    · intro τ hτ
      have h := meanLight_integrand (σ := σ) (t_obs := t_obs) (b := (τ + t_obs) / 2) hZ hF (by linarith [hτ.2]) (by linarith [hτ.2])
      have h' := ((floor_cont (sfr_min := 1e-14) hS).mono (Icc_subset_Icc le_rfl (by linarith [hτ.2] : (τ + t_obs) / 2 ≤ T))).mul h
      exact (h'.continuousAt (Icc_mem_nhds hτ.1 (by linarith [hτ.2]))).continuousWithinAt
    · intro τ hτ
      rw [abs_mul]
      exact mul_le_mul (hA τ ⟨hτ.1.le, hτ.2.le.trans hT⟩) (hm τ ⟨hτ.1.le, hτ.2.le⟩ hτ.2) (abs_nonneg _) ((abs_nonneg _).trans (hA τ ⟨hτ.1.le, hτ.2.le.trans hT⟩))
  have hqHi : ∀ c ∈ Icc 0.001 t_obs, ∀ d ∈ Icc 0.001 t_obs, IntervalIntegrable (fun τ => max 1e-14 (S τ) * metMean F (Z τ) σ (log10 (t_obs - τ))) MeasureTheory.volume c d := fun c hc d hd =>
    full.mono_set (by rw [uIcc_of_le (by linarith : (0.001:ℝ) ≤ t_obs)]; exact uIcc_subset_Icc hc hd)
  have m0 : (0.001:ℝ) ∈ Icc 0.001 t_obs := ⟨le_rfl, by linarith⟩
  have mt : t_obs ∈ Icc 0.001 t_obs := ⟨by linarith, le_rfl⟩
  have mτ0 : τ₀ ∈ Icc 0.001 t_obs := ⟨h0, by linarith⟩
  have mτ1 : τ₁ ∈ Icc 0.001 t_obs := ⟨by linarith, h1⟩
  have inT : ∀ {x}, x ∈ Icc 0.001 t_obs → x ∈ Icc 0.001 T := fun h => ⟨h.1, h.2.trans hT⟩
  have Dm := mass_sub (sfr_min := 1e-14) hS (inT mτ0) (inT mτ1)
  have Df : mass S 1e-14 t_obs = 1e9 * ∫ τ in (0.001:ℝ)..t_obs, max 1e-14 (S τ) := rfl
  have splitq := intervalIntegral.integral_add_adjacent_intervals (hqi _ m0 _ mτ0) (hqi _ mτ0 _ mt)
  have splitq' := intervalIntegral.integral_add_adjacent_intervals (hqi _ mτ0 _ mτ1) (hqi _ mτ1 _ mt)
  have splitL := intervalIntegral.integral_add_adjacent_intervals (hqHi _ m0 _ mτ0) (hqHi _ mτ0 _ mt)
  have splitL' := intervalIntegral.integral_add_adjacent_intervals (hqHi _ mτ0 _ mτ1) (hqHi _ mτ1 _ mt)
  have bnd : ∀ c ∈ Icc 0.001 t_obs, ∀ d ∈ Icc 0.001 t_obs, c ≤ d → |∫ τ in c..d, max 1e-14 (S τ) * metMean F (Z τ) σ (log10 (t_obs - τ))| ≤ B * ∫ τ in c..d, max 1e-14 (S τ) :=
    fun c hc d hd hcd => weighted_bound hcd (hqi c hc d hd) (hqHi c hc d hd) q0 fun τ hτ => hm τ ⟨hc.1.trans hτ.1.le, hτ.2.le.trans hd.2⟩ (lt_of_lt_of_le hτ.2 hd.2)
  have b1 := bnd _ m0 _ mτ0 h0
  have b2 := bnd _ mτ1 _ mt h1
  have b3 := bnd _ mτ0 _ mτ1 h01.le
  have pin : 0 < ∫ τ in τ₀..τ₁, max 1e-14 (S τ) := intervalIntegral.intervalIntegral_pos_of_pos_on (hqi _ mτ0 _ mτ1) (fun x _ => lt_max_of_lt_left (by norm_num)) h01
  have p1 : 0 ≤ ∫ τ in (0.001:ℝ)..τ₀, max 1e-14 (S τ) := intervalIntegral.integral_nonneg h0 fun x _ => q0 x
  have p2 : 0 ≤ ∫ τ in τ₁..t_obs, max 1e-14 (S τ) := intervalIntegral.integral_nonneg h1 fun x _ => q0 x
  have mz : mass S 1e-14 0.001 = 0 := mass_start
  unfold meanLight light
  rw [mz, sub_zero, Dm, Df, mul_div_mul_left _ _ (by norm_num : (1e9:ℝ) ≠ 0), mul_div_mul_left _ _ (by norm_num : (1e9:ℝ) ≠ 0), mul_div_mul_left _ _ (by norm_num : (1e9:ℝ) ≠ 0),
    ← splitq, ← splitq', ← splitL, ← splitL']
  generalize (∫ τ in (0.001:ℝ)..τ₀, max 1e-14 (S τ)) = d1 at *
  generalize (∫ τ in τ₀..τ₁, max 1e-14 (S τ)) = d at *
  generalize (∫ τ in τ₁..t_obs, max 1e-14 (S τ)) = d2 at *
  generalize (∫ τ in (0.001:ℝ)..τ₀, max 1e-14 (S τ) * metMean F (Z τ) σ (log10 (t_obs - τ))) = l1 at *
  generalize (∫ τ in τ₀..τ₁, max 1e-14 (S τ) * metMean F (Z τ) σ (log10 (t_obs - τ))) = l at *
  generalize (∫ τ in τ₁..t_obs, max 1e-14 (S τ) * metMean F (Z τ) σ (log10 (t_obs - τ))) = l2 at *
  have hD : 0 < d1 + (d + d2) := by linarith
  have e : l / d - (l1 + (l + l2)) / (d1 + (d + d2)) = (l / d * (d1 + d2) - (l1 + l2)) / (d1 + (d + d2)) := by field_simp; ring
  have e' : 2 * B * (1 - d / (d1 + (d + d2))) = 2 * B * (d1 + d2) / (d1 + (d + d2)) := by field_simp; ring
  rw [e, e', abs_div, abs_of_pos hD]
  refine div_le_div_of_nonneg_right ?_ hD.le
  have hl : |l / d| ≤ B := by rw [abs_div, abs_of_pos pin, div_le_iff₀ pin]; exact b3
  calc _ ≤ |l / d * (d1 + d2)| + |l1 + l2| := abs_sub _ _
    _ ≤ B * (d1 + d2) + (B * d1 + B * d2) := by
        refine add_le_add ?_ ((abs_add_le _ _).trans (add_le_add b1 b2))
        rw [abs_mul, abs_of_nonneg (add_nonneg p1 p2)]
        exact mul_le_mul_of_nonneg_right hl (add_nonneg p1 p2)
    _ = _ := by ring

/-! ## refining all grids -/

/-- births of stars whose log10 ages are at most `2δ` apart -/
lemma birth_near {x y c r : ℝ} (hxy : x ≤ y) (hr : (10:ℝ) ^ (y - x) ≤ r) (hc : t_obs - 0.001 = c) (hc0 : 0 ≤ c) :
    birthTime t_obs x - birthTime t_obs y ≤ c * (r - 1) := by
  have px : (0:ℝ) < (10:ℝ) ^ x := by positivity
  have h1 : (1:ℝ) ≤ (10:ℝ) ^ (y - x) := Real.one_le_rpow (by norm_num) (by linarith)
  have e : (10:ℝ) ^ y = (10:ℝ) ^ x * (10:ℝ) ^ (y - x) := by rw [← Real.rpow_add (by norm_num)]; congr 1; ring
  have nn : 0 ≤ c * (r - 1) := mul_nonneg hc0 (by linarith)
  unfold birthTime
  rcases le_total (t_obs - (10:ℝ) ^ x) 0.001 with h | h
  · rw [max_eq_left h]; linarith [le_max_left 0.001 (t_obs - (10:ℝ) ^ y)]
  · rw [max_eq_right h]
    have h2 := le_max_right 0.001 (t_obs - (10:ℝ) ^ y)
    have h3 : (10:ℝ) ^ x ≤ c := by linarith
    rw [e] at h2 ⊢
    nlinarith

/-- **The stellar populations of the grid** `z`, `a` of metallicities and ages (log10) suit a galaxy with metallicities `Z` (scatter `σ`) seen at `t_obs` to within `δ`: the
grids have spacings of at most `δ`, they cover the metallicities of all its stars and the ages of the oldest, and only stars younger than `δ` (Gyr) are left out; no stars
older than `10^x₁` or outside `[z₀, z₁]` are asked for. -/
structure Sfh.Suits (δ : ℝ) (Z : ℝ → ℝ) (σ t_obs z₀ z₁ x₁ : ℝ) (z : Fin (k + 3) → ℝ) (a : Fin (m + 3) → ℝ) : Prop where
  mild_z : MildlySpaced z
  mild_a : MildlySpaced a
  mesh_z : GridMesh δ z
  mesh_a : GridMesh δ a
  lo : z₀ ≤ z 0
  hi : z (Fin.last (k + 2)) ≤ z₁
  cover : ∀ τ ∈ Icc 0.001 t_obs, z 0 ≤ Z τ - 3 * σ ∧ Z τ + 3 * σ ≤ z (Fin.last (k + 2))
  young : (10:ℝ) ^ get_lg_age_bin_edges a 0 ≤ δ
  old : t_obs - 0.001 ≤ (10:ℝ) ^ get_lg_age_bin_edges a (Fin.last (m + 3))
  top : get_lg_age_bin_edges a (Fin.last (m + 3)) ≤ x₁

/-- fine grids: the luminosity changes little between grid points, the metallicity changes little within age bins, and few stars are left out -/
lemma suits_fine {ι : Type} {F : ι → ℝ → ℝ → ℝ} {z₀ z₁ x₁ B ω : ℝ} (hσ : 0 < σ) (hS : ContinuousOn S (Icc 0.001 T)) (hZ : ContinuousOn Z (Icc 0.001 T))
    (hobs : t_obs ∈ Ioc 0.001 T) (hF : ∀ i, Continuous fun p : ℝ × ℝ => F i p.1 p.2)
    (hu : ∃ δ₁ > 0, ∀ i, Gradual (F i) z₀ z₁ x₁ δ₁ δ₁ ω) (hB : ∀ i, ∀ u ∈ Icc z₀ z₁, ∀ x ≤ x₁, |F i u x| ≤ B) (hωp : 0 < ω) :
    ∃ δ₁ > 0, ∃ δ > 0, δ ≤ δ₁ ∧ ∀ (k m : ℕ) (z : Fin (k + 3) → ℝ) (a : Fin (m + 3) → ℝ), Suits δ Z σ t_obs z₀ z₁ x₁ z a →
      (∀ i, Gradual (F i) (z 0) (z (Fin.last (k + 2))) (get_lg_age_bin_edges a (Fin.last (m + 3))) δ₁ δ ω) ∧ Steady Z t_obs δ₁ a ∧ Populated S t_obs a ∧
      birthTime t_obs (get_lg_age_bin_edges a (Fin.last (m + 3))) = 0.001 ∧
      ∀ i, |meanLight S Z t_obs σ (F i) 0.001 (birthTime t_obs (get_lg_age_bin_edges a 0)) - meanLight S Z t_obs σ (F i) 0.001 t_obs| ≤ 2 * ω := by
  have hobs' : t_obs ∈ Icc 0.001 T := ⟨hobs.1.le, hobs.2⟩
  have Dp : 0 < mass S 1e-14 t_obs := by
    have : 0 < ∫ x in (0.001:ℝ)..t_obs, max 1e-14 (S x) :=
      intervalIntegral.intervalIntegral_pos_of_pos_on (floor_int hS ⟨le_rfl, hobs.1.le.trans hobs.2⟩ hobs') (fun x _ => lt_max_of_lt_left (by norm_num)) hobs.1
    unfold mass; positivity
  obtain ⟨A, hA⟩ : ∃ A, ∀ τ ∈ Icc 0.001 T, max 1e-14 (S τ) ≤ A := by
    obtain ⟨A, hA⟩ := isCompact_Icc.exists_bound_of_continuousOn (floor_cont (sfr_min := 1e-14) hS)
    exact ⟨A, fun τ hτ => (le_abs_self _).trans (hA τ hτ)⟩
  have hAp : 0 < A := lt_of_lt_of_le (lt_max_of_lt_left (by norm_num)) (hA 0.001 ⟨le_rfl, hobs.1.le.trans hobs.2⟩)
  obtain ⟨δ₁, hδ₁, h1⟩ := hu
  obtain ⟨η, hη, h2⟩ := Metric.uniformContinuousOn_iff_le.mp (isCompact_Icc.uniformContinuousOn_of_continuous hZ) δ₁ hδ₁
  -- births within one bin
  obtain ⟨δ₂, hδ₂, h3⟩ : ∃ δ₂ : ℝ, 0 < δ₂ ∧ (t_obs - 0.001) * ((10:ℝ) ^ (2 * δ₂) - 1) ≤ η := by
    have c : Continuous fun d : ℝ => (t_obs - 0.001) * ((10:ℝ) ^ (2 * d) - 1) :=
      continuous_const.mul (((continuous_const.rpow (continuous_const.mul continuous_id) fun _ => Or.inl (by norm_num))).sub continuous_const)
    have h : ∀ᶠ d in 𝓝 (0:ℝ), (t_obs - 0.001) * ((10:ℝ) ^ (2 * d) - 1) < η := (c.tendsto 0).eventually_lt_const (by simpa using hη)
    obtain ⟨r, hr, h⟩ := Metric.eventually_nhds_iff.mp h
    refine ⟨r / 2, by positivity, (h ?_).le⟩
    rw [Real.dist_eq, sub_zero, abs_of_pos (by positivity)]
    linarith
  set D := mass S 1e-14 t_obs with hD
  have Bn : 0 ≤ |B| := abs_nonneg B
  set δ₃ := D * ω / (1e9 * A * (|B| + 1)) with hδ₃
  have hδ₃p : 0 < δ₃ := by positivity
  refine ⟨δ₁, hδ₁, min (min (min δ₁ δ₂) δ₃) ((t_obs - 0.001) / 2), lt_min (lt_min (lt_min hδ₁ hδ₂) hδ₃p) (by linarith [hobs.1]),
    (min_le_left _ _).trans ((min_le_left _ _).trans (min_le_left _ _)), fun k m z a hg => ?_⟩
  set δ := min (min (min δ₁ δ₂) δ₃) ((t_obs - 0.001) / 2) with hδ
  have d1 : δ ≤ δ₁ := (min_le_left _ _).trans ((min_le_left _ _).trans (min_le_left _ _))
  have d2 : δ ≤ δ₂ := (min_le_left _ _).trans ((min_le_left _ _).trans (min_le_right _ _))
  have d3 : δ ≤ δ₃ := (min_le_left _ _).trans (min_le_right _ _)
  have d4 : δ ≤ (t_obs - 0.001) / 2 := min_le_right _ _
  set e := get_lg_age_bin_edges a with he
  have em : StrictMono e := C17_age_edges_mono a hg.mild_a
  have hw := age_bin_width hg.mild_a hg.mesh_a
  have y0 := hg.young
  have hpos : Populated S t_obs a := (C140_populated_iff hS hobs').mpr ⟨em (Fin.last_pos), by linarith [hobs.1]⟩
  have hgrad : ∀ i, Gradual (F i) (z 0) (z (Fin.last (k + 2))) (e (Fin.last (m + 3))) δ₁ δ ω := fun i u hu' u' hu'' x hx x' hx' hd hd' =>
    h1 i u ⟨hg.lo.trans hu'.1, hu'.2.trans hg.hi⟩ u' ⟨hg.lo.trans hu''.1, hu''.2.trans hg.hi⟩ x (hx.trans hg.top) x' (hx'.trans hg.top) hd (hd'.trans d1)
  have bT : ∀ x, birthTime t_obs x ∈ Icc 0.001 T := fun x => birth_mem hobs'.1 hobs'.2
  have hst : Steady Z t_obs δ₁ a := by
    intro j τ g0 g1
    have hj := hw j
    have near : birthTime t_obs (e j.castSucc) - birthTime t_obs (e j.succ) ≤ η := by
      refine (birth_near (c := t_obs - 0.001) (r := (10:ℝ) ^ (2 * δ₂)) (em (Fin.castSucc_lt_succ (i := j))).le ?_ rfl (by linarith [hobs.1])).trans h3
      exact Real.rpow_le_rpow_of_exponent_le (by norm_num) (by linarith [hj.2.2.1, hj.2.2.2])
    have q0 := birthTime_anti t_obs hj.1.le
    have q1 := birthTime_anti t_obs hj.2.1.le
    have := h2 _ (bT (a j)) τ ⟨(bT _).1.trans g0, g1.le.trans (bT _).2⟩ (by rw [Real.dist_eq, abs_le]; constructor <;> linarith)
    exact this
  have last : birthTime t_obs (e (Fin.last (m + 3))) = 0.001 := max_eq_left (by linarith [hg.old])
  have b0 : birthTime t_obs (e 0) = t_obs - (10:ℝ) ^ e 0 := max_eq_right (by linarith [hobs.1])
  have p0 : (0:ℝ) < (10:ℝ) ^ e 0 := by positivity
  have hx1 : log10 (t_obs - 0.001) ≤ x₁ := by
    have : Real.logb 10 (t_obs - 0.001) ≤ e (Fin.last (m + 3)) := (Real.logb_le_iff_le_rpow (by norm_num) (by linarith [hobs.1])).mpr hg.old
    exact this.trans hg.top
  have out := fun i => C156_outside (F := F i) (B := |B|) (τ₀ := 0.001) (τ₁ := birthTime t_obs (e 0)) (z₀ := z₀) (z₁ := z₁) hσ hS hZ hobs.2 le_rfl (by rw [b0]; linarith [hobs.1]) (by rw [b0]; linarith)
    (fun τ hτ => ⟨hg.lo.trans (hg.cover τ hτ).1, (hg.cover τ hτ).2.trans hg.hi⟩) hx1 (hF i) (fun u hu x hx => (hB i u hu x hx).trans (le_abs_self B))
  have miss : 1 - (mass S 1e-14 (birthTime t_obs (e 0)) - mass S 1e-14 0.001) / mass S 1e-14 t_obs ≤ 1e9 * A * δ₃ / D := by
    have h4 := (mass_sub_bounds (by norm_num) hS hA (bT (e 0)) hobs' (by rw [b0]; linarith)).2
    have h5 : 1e9 * (A * (t_obs - birthTime t_obs (e 0))) ≤ 1e9 * A * δ₃ := by
      rw [b0, mul_assoc]
      exact mul_le_mul_of_nonneg_left (mul_le_mul_of_nonneg_left (by linarith) hAp.le) (by norm_num)
    rw [mass_start, sub_zero, one_sub_div Dp.ne']
    exact div_le_div_of_nonneg_right (h4.trans h5) Dp.le
  have small : 1e9 * A * δ₃ / D = ω / (|B| + 1) := by
    rw [hδ₃]
    field_simp
  have out' : ∀ i, |meanLight S Z t_obs σ (F i) 0.001 (birthTime t_obs (e 0)) - meanLight S Z t_obs σ (F i) 0.001 t_obs| ≤ 2 * ω := fun i => by
    refine (out i).trans ((mul_le_mul_of_nonneg_left (miss.trans_eq small) (by positivity)).trans ?_)
    rw [← mul_div_assoc, div_le_iff₀ (by positivity)]
    nlinarith
  exact ⟨hgrad, hst, hpos, last, out'⟩

/-- uniform continuity as a modulus -/
lemma gradual_of_unif {z₀ z₁ x₁ ω : ℝ} (hu : UniformContinuousOn (fun p : ℝ × ℝ => F p.1 p.2) (Icc z₀ z₁ ×ˢ Iic x₁)) (hω : 0 < ω) : ∃ δ > 0, Gradual F z₀ z₁ x₁ δ δ ω := by
  obtain ⟨δ, hδ, h⟩ := Metric.uniformContinuousOn_iff_le.mp hu ω hω
  refine ⟨δ, hδ, fun u hu u' hu' x hx x' hx' hd hd' => h (u, x) ⟨hu, hx⟩ (u', x') ⟨hu', hx'⟩ ?_⟩
  rw [Prod.dist_eq, Real.dist_eq, Real.dist_eq]; exact max_le hd hd'

/-- C156: **spectra converge to the stellar population synthesis integral** (metallicity history).  For every continuous star formation and metallicity history and every
library of luminosities varying uniformly continuously with metallicity and log age: for SSP grids with fine enough spacings, and then for fine enough tables of the
histories, the SED is as close as wished to the mass formed times the mean luminosity of all the stars born by `t_obs`. -/
theorem C156_converges [Dtype] {F : Fin w → ℝ → ℝ → ℝ} {z₀ z₁ x₁ B : ℝ} (hs : 0 < sfr_min) (hσ : 0 < σ) (hS : ContinuousOn S (Icc 0.001 T)) (hZ : ContinuousOn Z (Icc 0.001 T))
    (hobs : t_obs ∈ Ioc 0.001 T) (hz0 : -10 < z₀) (hz1 : z₁ < 10) (l : Fin w) (hF : Continuous fun p : ℝ × ℝ => F l p.1 p.2)
    (hu : UniformContinuousOn (fun p : ℝ × ℝ => F l p.1 p.2) (Icc z₀ z₁ ×ˢ Iic x₁)) (hB : ∀ u ∈ Icc z₀ z₁, ∀ x ≤ x₁, |F l u x| ≤ B) {ε : ℝ} (hε : 0 < ε) :
    ∃ δ > 0, ∀ (k m : ℕ) (z : Fin (k + 3) → ℝ) (a : Fin (m + 3) → ℝ), Suits δ Z σ t_obs z₀ z₁ x₁ z a →
      ∃ δ' > 0, ∀ (n : ℕ) (t : Fin (n + 2) → ℝ), StrictMono t → 0.001 < t 0 → t (Fin.last (n + 1)) = T → Mesh δ' t →
        |(calc_rest_sed_sfh_table_met_table t (fun i => S (t i)) (fun i => Z (t i)) σ z a (fun i j l => F l (z i) (a j)) t_obs sfr_min).rest_sed l -
          mass S sfr_min t_obs * meanLight S Z t_obs σ (F l) 0.001 t_obs| ≤ ε := by
  have hobs' : t_obs ∈ Icc 0.001 T := ⟨hobs.1.le, hobs.2⟩
  set M := mass S sfr_min t_obs with hM
  have mn : 0 ≤ M := by
    have := intervalIntegral.integral_nonneg (μ := MeasureTheory.volume) hobs.1.le fun x (_ : x ∈ Icc 0.001 t_obs) => hs.le.trans (le_max_left sfr_min (S x))
    rw [hM]; unfold mass; positivity
  set ω := ε / (8 * (M + 1)) with hω
  have hωp : 0 < ω := by positivity
  obtain ⟨δ₁, hδ₁, δ, hδ, hle, hfine⟩ := suits_fine (F := fun _ : Unit => F l) (ω := ω) hσ hS hZ hobs (fun _ => hF)
    (by obtain ⟨δ, hδ, h⟩ := gradual_of_unif hu hωp; exact ⟨δ, hδ, fun _ => h⟩) (fun _ => hB) hωp
  refine ⟨δ, hδ, fun k m z a hg => ?_⟩
  obtain ⟨hgrad, hst, hpos, last, out⟩ := hfine k m z a hg
  replace hgrad := hgrad ()
  replace out := out ()
  obtain ⟨δ', hδ', h⟩ := C156_sed_met_history (ε := ε / 4) hs hσ hS hZ hobs' hg.mild_a hg.mesh_a hg.mild_z (fun i => (hg.mesh_z i).trans hle) (by linarith [hg.lo])
    (by linarith [hg.hi]) hg.cover l hF hgrad hst hpos (by positivity)
  refine ⟨δ', hδ', fun n t t1 t2 t3 t4 => ?_⟩
  have key := h n t t1 t2 t3 t4
  rw [last] at key
  refine (abs_sub_le _ _ _).trans ((add_le_add key ?_).trans (?_ : M * (2 * ω) + ε / 4 + M * (2 * ω) ≤ ε))
  · rw [← mul_sub, abs_mul, abs_of_nonneg mn]
    exact mul_le_mul_of_nonneg_left out mn
  · have : M * ω ≤ ε / 8 := by
      rw [hω, ← mul_div_assoc, div_le_div_iff₀ (by positivity) (by norm_num)]
      nlinarith
    linarith

/-- C156: **spectra converge to the stellar population synthesis integral** (one metallicity distribution).  For every continuous star formation history and every
library of luminosities varying uniformly continuously with metallicity and log age: for SSP grids with fine enough spacings, and then for fine enough tables of the
history, the SED is as close as wished to the mass formed times the mean luminosity of all the stars born by `t_obs`. -/
theorem C156_converges_lognormal [Dtype] {F : Fin w → ℝ → ℝ → ℝ} {μ z₀ z₁ x₁ B : ℝ} (hs : 0 < sfr_min) (hσ : 0 < σ) (hS : ContinuousOn S (Icc 0.001 T))
    (hobs : t_obs ∈ Ioc 0.001 T) (hz0 : -10 < z₀) (hz1 : z₁ < 10) (l : Fin w) (hF : Continuous fun p : ℝ × ℝ => F l p.1 p.2)
    (hu : UniformContinuousOn (fun p : ℝ × ℝ => F l p.1 p.2) (Icc z₀ z₁ ×ˢ Iic x₁)) (hB : ∀ u ∈ Icc z₀ z₁, ∀ x ≤ x₁, |F l u x| ≤ B) {ε : ℝ} (hε : 0 < ε) :
    ∃ δ > 0, ∀ (k m : ℕ) (z : Fin (k + 3) → ℝ) (a : Fin (m + 3) → ℝ), Suits δ (fun _ => μ) σ t_obs z₀ z₁ x₁ z a →
      ∃ δ' > 0, ∀ (n : ℕ) (t : Fin (n + 2) → ℝ), StrictMono t → 0.001 < t 0 → t (Fin.last (n + 1)) = T → Mesh δ' t →
        |(calc_rest_sed_sfh_table_lognormal_mdf t (fun i => S (t i)) μ σ z a (fun i j l => F l (z i) (a j)) t_obs sfr_min).rest_sed l -
          mass S sfr_min t_obs * meanLight S (fun _ => μ) t_obs σ (F l) 0.001 t_obs| ≤ ε := by
  have hobs' : t_obs ∈ Icc 0.001 T := ⟨hobs.1.le, hobs.2⟩
  set M := mass S sfr_min t_obs with hM
  have mn : 0 ≤ M := by
    have := intervalIntegral.integral_nonneg (μ := MeasureTheory.volume) hobs.1.le fun x (_ : x ∈ Icc 0.001 t_obs) => hs.le.trans (le_max_left sfr_min (S x))
    rw [hM]; unfold mass; positivity
  set ω := ε / (8 * (M + 1)) with hω
  have hωp : 0 < ω := by positivity
  obtain ⟨δ₁, hδ₁, δ, hδ, hle, hfine⟩ := suits_fine (F := fun _ : Unit => F l) (ω := ω) hσ hS (Z := fun _ => μ) continuousOn_const hobs (fun _ => hF)
    (by obtain ⟨δ, hδ, h⟩ := gradual_of_unif hu hωp; exact ⟨δ, hδ, fun _ => h⟩) (fun _ => hB) hωp
  refine ⟨δ, hδ, fun k m z a hg => ?_⟩
  obtain ⟨hgrad, hst, hpos, last, out⟩ := hfine k m z a hg
  replace hgrad := hgrad ()
  replace out := out ()
  obtain ⟨δ', hδ', h⟩ := C156_sed_lognormal (ε := ε / 4) hs hσ hS hobs' hg.mild_a hg.mesh_a hg.mild_z (fun i => (hg.mesh_z i).trans hle) (by linarith [hg.lo])
    (by linarith [hg.hi]) (hg.cover t_obs ⟨hobs.1.le, le_rfl⟩) l hF hgrad hpos (by positivity)
  refine ⟨δ', hδ', fun n t t1 t2 t3 t4 => ?_⟩
  have key := h n t t1 t2 t3 t4
  rw [last] at key
  refine (abs_sub_le _ _ _).trans ((add_le_add key ?_).trans (?_ : M * (2 * ω) + ε / 4 + M * (2 * ω) ≤ ε))
  · rw [← mul_sub, abs_mul, abs_of_nonneg mn]
    exact mul_le_mul_of_nonneg_left out mn
  · have : M * ω ≤ ε / 8 := by
      rw [hω, ← mul_div_assoc, div_le_div_iff₀ (by positivity) (by norm_num)]
      nlinarith
    linarith

/-- C156: grids as fine as wished exist, whenever the metallicities of the stars lie in `[z₀, z₁]` and the oldest stars are not older than `10^x₁` Gyr. -/
theorem C156_grids_exist {z₀ z₁ x₁ δ : ℝ} (hδ : 0 < δ) (hz : z₀ < z₁) (hobs : 0.001 < t_obs) (hx : t_obs - 0.001 ≤ (10:ℝ) ^ x₁)
    (hcov : ∀ τ ∈ Icc 0.001 t_obs, z₀ ≤ Z τ - 3 * σ ∧ Z τ + 3 * σ ≤ z₁) :
    ∃ (k m : ℕ) (z : Fin (k + 3) → ℝ) (a : Fin (m + 3) → ℝ), Suits δ Z σ t_obs z₀ z₁ x₁ z a := by
  obtain ⟨x₀, h0, h1⟩ : ∃ x₀, (10:ℝ) ^ x₀ ≤ δ ∧ x₀ < x₁ :=
    ⟨min (Real.logb 10 δ) (x₁ - 1), (Real.rpow_le_rpow_of_exponent_le (by norm_num) (min_le_left _ _)).trans_eq (Real.rpow_logb (by norm_num) (by norm_num) hδ),
      (min_le_right _ _).trans_lt (by linarith)⟩
  obtain ⟨k, hk⟩ := exists_nat_gt ((z₁ - z₀) / δ)
  obtain ⟨m, hm⟩ := exists_nat_gt ((x₁ - x₀) / δ)
  rw [div_lt_iff₀ hδ] at hk hm
  set dz := (z₁ - z₀) / (k + 2) with hdz
  set dx := (x₁ - x₀) / (m + 3) with hdx
  have pz : 0 < dz := div_pos (by linarith) (by positivity)
  have px : 0 < dx := div_pos (by linarith) (by positivity)
  have ez : (k + 2) * dz = z₁ - z₀ := by rw [hdz]; field_simp
  have ex : (m + 3) * dx = x₁ - x₀ := by rw [hdx]; field_simp
  have lz : dz ≤ δ := by
    rw [hdz, div_le_iff₀ (by positivity)]; nlinarith
  have lx : dx ≤ δ := by
    rw [hdx, div_le_iff₀ (by positivity)]; nlinarith
  have zl : z₀ + ((Fin.last (k + 2) : Fin (k + 3)) : ℕ) * dz = z₁ := by
    simp only [Fin.val_last]; push_cast; linarith
  have z0 : z₀ + ((0 : Fin (k + 3)) : ℕ) * dz = z₀ := by simp
  have e0 : get_lg_age_bin_edges (fun i : Fin (m + 3) => x₀ + dx / 2 + (i : ℕ) * dx) 0 = x₀ := by
    rw [lg_age_edges_eq, edges_zero]; simp
  have e1 : get_lg_age_bin_edges (fun i : Fin (m + 3) => x₀ + dx / 2 + (i : ℕ) * dx) (Fin.last (m + 3)) = x₁ := by
    rw [lg_age_edges_eq, edges_last, C06_uniform]; simp only [Fin.val_last]; push_cast; linarith
  refine ⟨k, m, fun i => z₀ + (i : ℕ) * dz, fun i => x₀ + dx / 2 + (i : ℕ) * dx, ⟨mildlySpaced_uniform (n := k) z₀ dz pz, mildlySpaced_uniform (n := m) _ dx px, ?_, ?_, ?_, ?_, ?_, ?_, ?_, ?_⟩⟩
  · intro i; simp only [Fin.val_succ, Fin.val_castSucc]; push_cast; linarith
  · intro i; simp only [Fin.val_succ, Fin.val_castSucc]; push_cast; linarith
  · exact z0.ge
  · exact zl.le
  · intro τ hτ
    have := hcov τ hτ
    exact ⟨z0.le.trans this.1, this.2.trans zl.ge⟩
  · rw [e0]; exact h0
  · rw [e1]; exact hx
  · rw [e1]

end

section
attribute [local instance] Dtype.float64

/-- a library of stars as luminous up to the age of 1 Myr, then fainter by one unit for each factor of ten in age, and fainter with metallicity -/
noncomputable def caseLight (u x : ℝ) : ℝ := 5 - max x (-3) - u

lemma caseLight_cont : Continuous fun p : ℝ × ℝ => caseLight p.1 p.2 := by unfold caseLight; fun_prop

lemma caseLight_lip (u x u' x' : ℝ) : |caseLight u x - caseLight u' x'| ≤ |u - u'| + |x - x'| := by
  unfold caseLight
  have h1 := abs_max_sub_max_le_abs x x' (-3)
  rw [show 5 - max x (-3) - u - (5 - max x' (-3) - u') = -((max x (-3) - max x' (-3)) + (u - u')) by ring, abs_neg]
  exact (abs_add_le _ _).trans (by linarith)

lemma caseLight_unif (s : Set (ℝ × ℝ)) : UniformContinuousOn (fun p : ℝ × ℝ => caseLight p.1 p.2) s := by
  rw [Metric.uniformContinuousOn_iff_le]
  intro ε hε
  refine ⟨ε / 2, by positivity, fun p _ q _ h => ?_⟩
  rw [Prod.dist_eq, Real.dist_eq, Real.dist_eq] at h
  have := caseLight_lip p.1 p.2 q.1 q.2
  have a := (le_max_left _ _).trans h
  have b := (le_max_right _ _).trans h
  show |caseLight p.1 p.2 - caseLight q.1 q.2| ≤ ε
  linarith

lemma caseLight_bound : ∀ u ∈ Icc (-3:ℝ) 0, ∀ x ≤ (2:ℝ), |caseLight u x| ≤ 11 := by
  intro u hu x hx
  have h1 : max x (-3) ≤ 2 := max_le hx (by norm_num)
  have h2 := le_max_right x (-3)
  unfold caseLight
  rw [abs_le]
  constructor <;> linarith [hu.1, hu.2]

lemma case_enrich : ∀ τ ∈ Icc (0.001:ℝ) 13, (-3:ℝ) ≤ (τ / 10 - 2) - 3 * 0.2 ∧ (τ / 10 - 2) + 3 * 0.2 ≤ 0 := fun τ hτ => ⟨by linarith [hτ.1], by linarith [hτ.2]⟩

/-- cases: a star formation rate and metallicities rising linearly, observed at 13 Gyr -/
example := C156_converges (w := 1) (S := fun x => 1 + x) (Z := fun x => x / 10 - 2) (T := 13.8) (t_obs := 13) (sfr_min := 1e-14) (σ := 0.2) (F := fun _ => caseLight)
  (z₀ := -3) (z₁ := 0) (x₁ := 2) (B := 11) (by norm_num) (by norm_num) (by fun_prop) (by fun_prop) ⟨by norm_num, by norm_num⟩ (by norm_num) (by norm_num) 0 caseLight_cont
  (caseLight_unif _) caseLight_bound (ε := 1 / 100) (by norm_num)
example := C156_converges_lognormal (w := 1) (S := fun x => 1 + x) (μ := -1) (T := 13.8) (t_obs := 13) (sfr_min := 1e-14) (σ := 0.2) (F := fun _ => caseLight)
  (z₀ := -3) (z₁ := 0) (x₁ := 2) (B := 11) (by norm_num) (by norm_num) (by fun_prop) ⟨by norm_num, by norm_num⟩ (by norm_num) (by norm_num) 0 caseLight_cont
  (caseLight_unif _) caseLight_bound (ε := 1 / 100) (by norm_num)
example := C156_grids_exist (Z := fun x => x / 10 - 2) (σ := 0.2) (t_obs := 13) (z₀ := -3) (z₁ := 0) (x₁ := 2) (δ := 1 / 100) (by norm_num) (by norm_num) (by norm_num)
  (by norm_num) case_enrich
/-- the theorems of this file apply to any of these grids -/
example : ∃ (k m : ℕ) (z : Fin (k + 3) → ℝ) (a : Fin (m + 3) → ℝ),
    |∑ i, ∑ j, calc_lgmet_weights_from_lognormal_mdf (-1) 0.2 z i * binShare (fun x => 1 + x) 13 a j * caseLight (z i) (a j) -
      meanLight (fun x => 1 + x) (fun _ => -1) 13 0.2 caseLight (birthTime 13 (get_lg_age_bin_edges a (Fin.last (m + 3)))) (birthTime 13 (get_lg_age_bin_edges a 0))| ≤ 2 * (1 / 50) := by
  obtain ⟨k, m, z, a, hg⟩ := C156_grids_exist (Z := fun _ => -1) (σ := 0.2) (t_obs := 13) (z₀ := -3) (z₁ := 0) (x₁ := 2) (δ := 1 / 100) (by norm_num) (by norm_num)
    (by norm_num) (by norm_num) (fun τ _ => ⟨by norm_num, by norm_num⟩)
  refine ⟨k, m, z, a, ?_⟩
  have hpos : Populated (fun x => 1 + x) 13 a := (C140_populated_iff (T := 13.8) (by fun_prop) ⟨by norm_num, by norm_num⟩).mpr
    ⟨C17_age_edges_mono a hg.mild_a Fin.last_pos, by linarith [hg.young]⟩
  exact C156_grid_error (T := 13.8) (Z := fun _ => -1) (δz := 1 / 100) (δx := 1 / 100) (by norm_num) (by fun_prop) (by fun_prop) ⟨by norm_num, by norm_num⟩ hg.mild_a hg.mesh_a hg.mild_z hg.mesh_z
    (by linarith [hg.lo]) (by linarith [hg.hi]) hg.cover caseLight_cont (fun u _ u' _ x _ x' _ h h' => (caseLight_lip u x u' x').trans (by linarith))
    (fun _ _ _ _ => by norm_num) hpos
example := C156_outside (S := fun x => 1 + x) (Z := fun x => x / 10 - 2) (T := 13.8) (t_obs := 13) (σ := 0.2) (F := caseLight) (z₀ := -3) (z₁ := 0) (x₁ := 2) (B := 11) (τ₀ := 0.1) (τ₁ := 12.9)
  (by norm_num) (by fun_prop) (by fun_prop) (by norm_num) (by norm_num) (by norm_num) (by norm_num) case_enrich
  (by show Real.logb 10 _ ≤ 2; rw [Real.logb_le_iff_le_rpow (by norm_num) (by norm_num)]; norm_num) caseLight_cont caseLight_bound
end

end Dsps.Props
