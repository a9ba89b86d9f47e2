import Verif.Props.Perturb
import Verif.Props.MetShift
import Verif.Lemmas.RoundMet
import Verif.Props.DustMag

/-! C155: how much weights, spectra and magnitudes change when the metallicity, its scatter, or the transmission of a filter change. -/
namespace Dsps.Props
open Dsps.Utils Dsps.Lemmas Dsps.StellarAgeWeights Dsps.MetallicityWeights Dsps.SspWeights Dsps.Constants Jnp Spec Set
open scoped BigOperators
variable {n m k w : ℕ}

section weights
variable {μ μ' σ σ' : ℝ} {z : Fin (k + 3) → ℝ}

lemma twc_le_of_abs {x y : ℝ} (h : |y| ≤ |x|) : twc x ≤ twc y := by
  rw [twc_eq_max, twc_eq_max]
  have : y ^ 2 ≤ x ^ 2 := sq_le_sq.2 h
  have h2 : 1 - (x / 3) ^ 2 ≤ 1 - (y / 3) ^ 2 := by rw [div_pow, div_pow]; linarith
  gcongr

/-- the weight of a bin is the integral of the distribution over it -/
lemma weight_integral (hσ : 0 < σ) (hl : -10 ≤ μ - 3 * σ) (hh : μ + 3 * σ ≤ 10) (i : Fin (k + 3)) :
    calc_lgmet_weights_from_lognormal_mdf μ σ z i =
      ∫ u in (get_bin_edges z LGMET_LO LGMET_HI i.castSucc)..(get_bin_edges z LGMET_LO LGMET_HI i.succ), triweight_gaussian u μ σ := by
  have tot := weight_inside (z := z) hσ hl hh
  have := C04_triweights_overlap μ σ hσ (get_bin_edges z LGMET_LO LGMET_HI) (by rw [tot]; norm_num) i
  rw [tot, div_one] at this
  exact this

lemma shift_l1 (hσ : 0 < σ) (hμ : μ ≤ μ') (hl : -10 ≤ μ - 3 * σ) (hh : μ' + 3 * σ ≤ 10) (hz : MildlySpaced z) (hlo : -10 < z 0) (hhi : z (Fin.last (k + 2)) < 10) :
    ∑ i, |calc_lgmet_weights_from_lognormal_mdf μ' σ z i - calc_lgmet_weights_from_lognormal_mdf μ σ z i| ≤ 35 / 48 * ((μ' - μ) / σ) := by
  set e := get_bin_edges z LGMET_LO LGMET_HI with he
  have hmono : Monotone e := (lgmet_edges_mono z hz hlo hhi).monotone
  have c1 := continuous_triweight_gaussian μ σ
  have c2 := continuous_triweight_gaussian μ' σ
  have ii := fun p q => c1.intervalIntegrable (μ := MeasureTheory.volume) p q
  have ii' := fun p q => c2.intervalIntegrable (μ := MeasureTheory.volume) p q
  have step : ∀ i : Fin (k + 3), |calc_lgmet_weights_from_lognormal_mdf μ' σ z i - calc_lgmet_weights_from_lognormal_mdf μ σ z i| ≤
      ∫ u in (e i.castSucc)..(e i.succ), |triweight_gaussian u μ' σ - triweight_gaussian u μ σ| := fun i => by
    rw [weight_integral hσ (by linarith) hh, weight_integral hσ hl (by linarith), ← intervalIntegral.integral_sub (ii' _ _) (ii _ _)]
    exact intervalIntegral.abs_integral_le_integral_abs (hmono (Fin.castSucc_le_succ i))
  refine (Finset.sum_le_sum fun i _ => step i).trans ?_
  have hc : Continuous fun u => |triweight_gaussian u μ' σ - triweight_gaussian u μ σ| := (c2.sub c1).abs
  rw [sum_adjacent hc]
  have e0 : e 0 = LGMET_LO := (C05_edges_limits z LGMET_LO LGMET_HI).1
  have e1 : e (Fin.last (k + 3)) = LGMET_HI := (C05_edges_limits z LGMET_LO LGMET_HI).2
  have L : LGMET_LO = -10 := by norm_num [LGMET_LO]
  have Hh : LGMET_HI = 10 := by norm_num [LGMET_HI]
  rw [e0, e1, L, Hh]
  set c := (μ + μ') / 2 with hcdef
  have ic := fun p q => hc.intervalIntegrable (μ := MeasureTheory.volume) p q
  have b0 : (-10 : ℝ) ≤ c := by linarith
  have b1 : c ≤ 10 := by linarith
  rw [← intervalIntegral.integral_add_adjacent_intervals (ic (-10) c) (ic c 10)]
  have kle : ∀ u, u ≤ c → triweight_gaussian u μ' σ ≤ triweight_gaussian u μ σ := fun u hu => by
    rw [triweight_gaussian_eq, triweight_gaussian_eq]
    refine div_le_div_of_nonneg_right (twc_le_of_abs ?_) hσ.le
    rw [abs_div, abs_div]
    refine div_le_div_of_nonneg_right ?_ (abs_nonneg _)
    rw [abs_le]
    have : |u - μ'| = μ' - u := by rw [abs_sub_comm]; exact abs_of_nonneg (by linarith)
    rw [this]; constructor <;> linarith
  have kge : ∀ u, c ≤ u → triweight_gaussian u μ σ ≤ triweight_gaussian u μ' σ := fun u hu => by
    rw [triweight_gaussian_eq, triweight_gaussian_eq]
    refine div_le_div_of_nonneg_right (twc_le_of_abs ?_) hσ.le
    rw [abs_div, abs_div]
    refine div_le_div_of_nonneg_right ?_ (abs_nonneg _)
    rw [abs_le]
    have : |u - μ| = u - μ := abs_of_nonneg (by linarith)
    rw [this]; constructor <;> linarith
  have a1 : ∫ u in (-10)..c, |triweight_gaussian u μ' σ - triweight_gaussian u μ σ| = (∫ u in (-10)..c, triweight_gaussian u μ σ) - ∫ u in (-10)..c, triweight_gaussian u μ' σ := by
    rw [← intervalIntegral.integral_sub (ii _ _) (ii' _ _)]
    refine intervalIntegral.integral_congr fun u hu => ?_
    rw [uIcc_of_le b0] at hu
    show |_| = _
    rw [abs_sub_comm]
    exact abs_of_nonneg (sub_nonneg.2 (kle u hu.2))
  have a2 : ∫ u in c..10, |triweight_gaussian u μ' σ - triweight_gaussian u μ σ| = (∫ u in c..10, triweight_gaussian u μ' σ) - ∫ u in c..10, triweight_gaussian u μ σ := by
    rw [← intervalIntegral.integral_sub (ii' _ _) (ii _ _)]
    refine intervalIntegral.integral_congr fun u hu => ?_
    rw [uIcc_of_le b1] at hu
    show |_| = _
    exact abs_of_nonneg (sub_nonneg.2 (kge u hu.1))
  have z1 := (C01_triweight_cdf μ σ hσ).2.2.1 (-10) (by linarith)
  have z2 := (C01_triweight_cdf μ' σ hσ).2.2.1 (-10) (by linarith)
  have o1 := (C01_triweight_cdf μ σ hσ).2.2.2.1 10 (by linarith)
  have o2 := (C01_triweight_cdf μ' σ hσ).2.2.2.1 10 hh
  rw [a1, a2]
  simp only [integral_triweight_gaussian _ _ _ _ hσ.ne', z1, z2, o1, o2, tw_cuml_kern_eq]
  have lip := twC_lipschitz ((c - μ) / σ) ((c - μ') / σ)
  have d : (c - μ) / σ - (c - μ') / σ = (μ' - μ) / σ := by ring
  rw [d, abs_of_nonneg (div_nonneg (by linarith) hσ.le : 0 ≤ (μ' - μ) / σ)] at lip
  have := (abs_le.1 lip).2
  linarith

/-- C155: **metallicity weights.** Moving the galaxy's metallicity by `Δ` dex changes the weights by at most `35/48 Δ/σ` in total (summed over the SSP metallicities). -/
theorem C155_lgmet_weights (hσ : 0 < σ) (h1 : -10 ≤ μ - 3 * σ) (h2 : μ + 3 * σ ≤ 10) (h3 : -10 ≤ μ' - 3 * σ) (h4 : μ' + 3 * σ ≤ 10) (hz : MildlySpaced z) (hlo : -10 < z 0)
    (hhi : z (Fin.last (k + 2)) < 10) :
    ∑ i, |calc_lgmet_weights_from_lognormal_mdf μ' σ z i - calc_lgmet_weights_from_lognormal_mdf μ σ z i| ≤ 35 / 48 * (|μ' - μ| / σ) := by
  rcases le_total μ μ' with h | h
  · rw [abs_of_nonneg (sub_nonneg.2 h)]
    exact shift_l1 hσ h h1 h4 hz hlo hhi
  · rw [abs_sub_comm, abs_of_nonneg (sub_nonneg.2 h)]
    simp only [abs_sub_comm (calc_lgmet_weights_from_lognormal_mdf μ' σ z _)]
    exact shift_l1 hσ h h3 h2 hz hlo hhi

lemma l1_of_share {ι : Type*} [Fintype ι] {v v' : ι → ℝ} {r : ℝ} (hv : ∑ i, v i = 1) (hv' : ∑ i, v' i = 1) (h : ∀ i, r * v i ≤ v' i) (h0 : ∀ i, 0 ≤ v i) (hr1 : r ≤ 1) :
    ∑ i, |v' i - v i| ≤ 2 * (1 - r) := by
  have pt : ∀ i, |v' i - v i| ≤ (v' i - r * v i) + (1 - r) * v i := fun i => by
    have := h i
    have := mul_nonneg (sub_nonneg.2 hr1) (h0 i)
    rw [abs_le]; constructor <;> linarith
  refine (Finset.sum_le_sum fun i _ => pt i).trans_eq ?_
  rw [Finset.sum_add_distrib, Finset.sum_sub_distrib, ← Finset.mul_sum, ← Finset.mul_sum, hv, hv']
  ring

/-- C155: **scatter.** Raising the scatter from `σ` to `σ'` changes the weights by at most `2 (1 - σ/σ')` in total; no weight falls by more than the factor `σ/σ'`. -/
theorem C155_scatter (hσ : 0 < σ) (hs : σ ≤ σ') (h1 : -10 ≤ μ - 3 * σ') (h2 : μ + 3 * σ' ≤ 10) (hz : MildlySpaced z) (hlo : -10 < z 0) (hhi : z (Fin.last (k + 2)) < 10) :
    (∀ i, σ / σ' * calc_lgmet_weights_from_lognormal_mdf μ σ z i ≤ calc_lgmet_weights_from_lognormal_mdf μ σ' z i) ∧
    ∑ i, |calc_lgmet_weights_from_lognormal_mdf μ σ' z i - calc_lgmet_weights_from_lognormal_mdf μ σ z i| ≤ 2 * (1 - σ / σ') := by
  have hσ' : 0 < σ' := hσ.trans_le hs
  have p := C21_lgmet_weights_prob_mild_partial μ σ hσ z hz hlo hhi
  have p' := C21_lgmet_weights_prob_mild_partial μ σ' hσ' z hz hlo hhi
  have main : ∀ i, σ / σ' * calc_lgmet_weights_from_lognormal_mdf μ σ z i ≤ calc_lgmet_weights_from_lognormal_mdf μ σ' z i := fun i => by
    rw [weight_integral hσ (by linarith) (by linarith), weight_integral hσ' h1 h2, ← intervalIntegral.integral_const_mul]
    refine intervalIntegral.integral_mono_on ((lgmet_edges_mono z hz hlo hhi).monotone (Fin.castSucc_le_succ i))
      ((continuous_const.mul (continuous_triweight_gaussian μ σ)).intervalIntegrable _ _) ((continuous_triweight_gaussian μ σ').intervalIntegrable _ _) fun u _ => ?_
    rw [triweight_gaussian_eq, triweight_gaussian_eq]
    have : twc ((u - μ) / σ) ≤ twc ((u - μ) / σ') := by
      refine twc_le_of_abs ?_
      rw [abs_div, abs_div, abs_of_pos hσ, abs_of_pos hσ']
      gcongr
    rw [div_mul_div_comm, mul_comm σ' σ, mul_div_mul_left _ _ hσ.ne']
    gcongr
  exact ⟨main, l1_of_share p.2 p'.2 main p.1 ((div_le_one hσ').2 hs)⟩

/-- the total variation allowed by a change of metallicity `Δ` and scatter -/
noncomputable def metShift (Δ σ σ' : ℝ) : ℝ := 35 / 96 * (Δ / σ) + (1 - min σ σ' / max σ σ')

lemma weights_l1 (hσ : 0 < σ) (hσ' : 0 < σ') (hσ1 : σ ≤ 1) (hσ1' : σ' ≤ 1) (hμ : |μ| ≤ 7) (hμ' : |μ'| ≤ 7) (hz : MildlySpaced z) (hlo : -10 < z 0)
    (hhi : z (Fin.last (k + 2)) < 10) :
    ∑ i, |calc_lgmet_weights_from_lognormal_mdf μ' σ' z i - calc_lgmet_weights_from_lognormal_mdf μ σ z i| ≤ 2 * metShift |μ' - μ| σ σ' := by
  rw [abs_le] at hμ hμ'
  have a := C155_lgmet_weights (μ := μ) (μ' := μ') hσ (by linarith) (by linarith) (by linarith) (by linarith) hz hlo hhi
  have b : ∑ i, |calc_lgmet_weights_from_lognormal_mdf μ' σ' z i - calc_lgmet_weights_from_lognormal_mdf μ' σ z i| ≤ 2 * (1 - min σ σ' / max σ σ') := by
    rcases le_total σ σ' with h | h
    · rw [min_eq_left h, max_eq_right h]
      exact (C155_scatter hσ h (by linarith) (by linarith) hz hlo hhi).2
    · rw [min_eq_right h, max_eq_left h]
      simp only [abs_sub_comm (calc_lgmet_weights_from_lognormal_mdf μ' σ' z _)]
      exact (C155_scatter hσ' h (by linarith) (by linarith) hz hlo hhi).2
  have c : ∑ i, |calc_lgmet_weights_from_lognormal_mdf μ' σ' z i - calc_lgmet_weights_from_lognormal_mdf μ σ z i| ≤
      ∑ i, (|calc_lgmet_weights_from_lognormal_mdf μ' σ' z i - calc_lgmet_weights_from_lognormal_mdf μ' σ z i| +
        |calc_lgmet_weights_from_lognormal_mdf μ' σ z i - calc_lgmet_weights_from_lognormal_mdf μ σ z i|) :=
    Finset.sum_le_sum fun i _ => abs_sub_le _ _ _
  rw [Finset.sum_add_distrib] at c
  unfold metShift
  linarith

lemma metShift_nonneg {Δ : ℝ} (hΔ : 0 ≤ Δ) (hσ : 0 < σ) (hσ' : 0 < σ') : 0 ≤ metShift Δ σ σ' := by
  unfold metShift
  have : min σ σ' / max σ σ' ≤ 1 := (div_le_one (lt_max_of_lt_left hσ)).2 min_le_max
  have : 0 ≤ Δ / σ := by positivity
  linarith

lemma metShift_mono {Δ Δ' : ℝ} (h : Δ ≤ Δ') (hσ : 0 < σ) : metShift Δ σ σ' ≤ metShift Δ' σ σ' := by
  unfold metShift
  gcongr

/-- a mean of quantities known to within a ratio `R` of each other, under two nearby distributions -/
lemma mean_l1 {ι : Type*} [Fintype ι] [Nonempty ι] {v v' f : ι → ℝ} {R ε : ℝ} (hv : ∑ i, v i = 1) (hv' : ∑ i, v' i = 1) (h0 : ∀ i, 0 ≤ v i) (hd : ∑ i, |v' i - v i| ≤ 2 * ε)
    (hf : ∀ i, 0 ≤ f i) (hR : ∀ i i', f i ≤ R * f i') : |∑ i, v' i * f i - ∑ i, v i * f i| ≤ (R - 1) * ε * ∑ i, v i * f i := by
  obtain ⟨i0, hi0⟩ := Finite.exists_min f
  set c := (R + 1) / 2 * f i0 with hc
  have R1 : 0 ≤ (R - 1) / 2 * f i0 := by have := hR i0 i0; linarith
  have e : ∑ i, v' i * f i - ∑ i, v i * f i = ∑ i, (f i - c) * (v' i - v i) := by
    have : ∀ i, (f i - c) * (v' i - v i) = (v' i * f i - v i * f i) - c * (v' i - v i) := fun i => by ring
    rw [Finset.sum_congr rfl fun i _ => this i, Finset.sum_sub_distrib, Finset.sum_sub_distrib, ← Finset.mul_sum, Finset.sum_sub_distrib, hv, hv']
    ring
  have L : f i0 ≤ ∑ i, v i * f i := by
    have : ∑ i, v i * f i0 ≤ ∑ i, v i * f i := Finset.sum_le_sum fun i _ => mul_le_mul_of_nonneg_left (hi0 i) (h0 i)
    rwa [← Finset.sum_mul, hv, one_mul] at this
  rw [e]
  have pt : ∀ i, |(f i - c) * (v' i - v i)| ≤ (R - 1) / 2 * f i0 * |v' i - v i| := fun i => by
    rw [abs_mul]
    refine mul_le_mul_of_nonneg_right ?_ (abs_nonneg _)
    have := hi0 i
    have := hR i i0
    rw [abs_le]; constructor <;> linarith
  have S0 : 0 ≤ ∑ i, |v' i - v i| := Finset.sum_nonneg fun i _ => abs_nonneg _
  have ε0 : 0 ≤ ε := by linarith
  calc |∑ i, (f i - c) * (v' i - v i)| ≤ ∑ i, (R - 1) / 2 * f i0 * |v' i - v i| := (Finset.abs_sum_le_sum_abs _ _).trans (Finset.sum_le_sum fun i _ => pt i)
    _ = (R - 1) / 2 * f i0 * ∑ i, |v' i - v i| := by rw [Finset.mul_sum]
    _ ≤ (R - 1) / 2 * f i0 * (2 * ε) := mul_le_mul_of_nonneg_left hd R1
    _ = (R - 1) * f i0 * ε := by ring
    _ ≤ (R - 1) * ε * ∑ i, v i * f i := by
      rcases le_or_gt 1 R with hR1 | hR1
      · have := mul_le_mul_of_nonneg_left L (mul_nonneg (sub_nonneg.2 hR1) ε0)
        linarith
      · have z : f i0 = 0 := by
          have := hf i0
          nlinarith
        have zf : ∀ i, f i = 0 := fun i => le_antisymm (by have := hR i i0; rw [z, mul_zero] at this; exact this) (hf i)
        simp [zf]

end weights

section sed
variable [Dtype] {t s zt zt' : Fin (n + 2) → ℝ} {a : Fin (m + 3) → ℝ} {z : Fin (k + 3) → ℝ} {flux : Fin (k + 3) → Fin (m + 3) → Fin w → ℝ}
  {t_obs scatter scatter' μ μ' R Δ sfr_min : ℝ}

lemma mix_form (H : SedInputs t a z t_obs scatter) (hzt : ∀ i, |zt i| ≤ 7) (l : Fin w) :
    let M := fun j => interp (Real.logb 10 (birthTime t_obs (a j))) (fun l => Real.logb 10 (t l)) zt
    (calc_rest_sed_sfh_table_lognormal_mdf t s μ scatter z a flux t_obs sfr_min).rest_sed l = massFormed t s sfr_min t_obs *
      ∑ j, calc_age_weights_from_sfh_table t s a t_obs SFR_MIN j * ∑ i, calc_lgmet_weights_from_lognormal_mdf μ scatter z i * flux i j l ∧
    (calc_rest_sed_sfh_table_met_table t s zt scatter z a flux t_obs sfr_min).rest_sed l = massFormed t s sfr_min t_obs *
      ∑ j, calc_age_weights_from_sfh_table t s a t_obs SFR_MIN j * ∑ i, calc_lgmet_weights_from_lognormal_mdf (M j) scatter z i * flux i j l := by
  intro M
  have hage := C17_age_weights_prob_mild_partial t s a t_obs H.times H.start H.resolved H.ages H.young H.old
  have hmet := C21_lgmet_weights_prob_mild_partial μ scatter H.width z H.mets H.low H.high
  constructor
  · rw [(C25_sed_formula t s zt μ scatter z a flux t_obs sfr_min l).1, Finset.sum_comm]
    congr 1
    refine Finset.sum_congr rfl fun j _ => ?_
    rw [Finset.mul_sum]
    refine Finset.sum_congr rfl fun i _ => ?_
    have e := C23_joint_weights_lognormal t s μ scatter z a t_obs hage hmet
    have e1 := e.2.2.1 i j
    rw [e.1, e.2.1] at e1
    have e2 : (calc_rest_sed_sfh_table_lognormal_mdf t s μ scatter z a flux t_obs sfr_min).weights i j = _ := e1
    rw [e2]; ring
  · rw [(C25_sed_formula t s zt μ scatter z a flux t_obs sfr_min l).2, Finset.sum_comm]
    congr 1
    refine Finset.sum_congr rfl fun j _ => ?_
    rw [Finset.mul_sum]
    refine Finset.sum_congr rfl fun i _ => ?_
    have hw := (C24_factorisation_any_grid t s zt scatter z a t_obs H.times H.start H.resolved H.ages.1 H.young H.old H.width
      (fun i => by linarith [(abs_le.1 (hzt i)).1]) (fun i => by linarith [(abs_le.1 (hzt i)).2])).1
    have e : (calc_rest_sed_sfh_table_met_table t s zt scatter z a flux t_obs sfr_min).weights i j = _ := hw i j
    rw [e]; simp only [M]; ring

/-- C155: **spectra.** If at some wavelength, at each age, SSPs of different metallicities differ at most by a factor `R`, a change of the galaxy's metallicity
(or of its metallicity at every time of the table) by at most `Δ` and of the scatter from `σ` to `σ'` changes the galaxy's spectrum there by a relative
amount of at most `(R - 1) (35/96 Δ/σ + 1 - min σ σ' / max σ σ')`. -/
theorem C155_sed (H : SedInputs t a z t_obs scatter) (hσ' : 0 < scatter') (hσ1 : scatter ≤ 1) (hσ1' : scatter' ≤ 1) (hF : ∀ i j l, 0 ≤ flux i j l) (l : Fin w)
    (hR : ∀ i i' j, flux i j l ≤ R * flux i' j l) :
    (|μ| ≤ 7 → |μ'| ≤ 7 → |μ' - μ| ≤ Δ →
      let sed := (calc_rest_sed_sfh_table_lognormal_mdf t s μ scatter z a flux t_obs sfr_min).rest_sed
      let sed' := (calc_rest_sed_sfh_table_lognormal_mdf t s μ' scatter' z a flux t_obs sfr_min).rest_sed
      |sed' l - sed l| ≤ (R - 1) * metShift Δ scatter scatter' * sed l) ∧
    ((∀ i, |zt i| ≤ 7) → (∀ i, |zt' i| ≤ 7) → (∀ i, |zt' i - zt i| ≤ Δ) →
      let sed := (calc_rest_sed_sfh_table_met_table t s zt scatter z a flux t_obs sfr_min).rest_sed
      let sed' := (calc_rest_sed_sfh_table_met_table t s zt' scatter' z a flux t_obs sfr_min).rest_sed
      |sed' l - sed l| ≤ (R - 1) * metShift Δ scatter scatter' * sed l) := by
  have H' : SedInputs t a z t_obs scatter' := { H with width := hσ' }
  have hage := C17_age_weights_prob_mild_partial t s a t_obs H.times H.start H.resolved H.ages H.young H.old
  have hmet := fun x => C21_lgmet_weights_prob_mild_partial x scatter H.width z H.mets H.low H.high
  have hmet' := fun x => C21_lgmet_weights_prob_mild_partial x scatter' hσ' z H.mets H.low H.high
  have light : ∀ (x x' : ℝ) (j : Fin (m + 3)), |x| ≤ 7 → |x'| ≤ 7 → |x' - x| ≤ Δ →
      |∑ i, calc_lgmet_weights_from_lognormal_mdf x' scatter' z i * flux i j l - ∑ i, calc_lgmet_weights_from_lognormal_mdf x scatter z i * flux i j l| ≤
        (R - 1) * metShift Δ scatter scatter' * ∑ i, calc_lgmet_weights_from_lognormal_mdf x scatter z i * flux i j l := fun x x' j h1 h2 h3 =>
    mean_l1 (hmet x).2 (hmet' x').2 (hmet x).1
      ((weights_l1 H.width hσ' hσ1 hσ1' h1 h2 H.mets H.low H.high).trans (mul_le_mul_of_nonneg_left (metShift_mono h3 H.width) (by norm_num)))
      (fun i => hF i j l) (fun i i' => hR i i' j)
  have comb : ∀ X X' : Fin (m + 3) → ℝ, (∀ j, |X' j - X j| ≤ (R - 1) * metShift Δ scatter scatter' * X j) →
      |massFormed t s sfr_min t_obs * ∑ j, calc_age_weights_from_sfh_table t s a t_obs SFR_MIN j * X' j -
        massFormed t s sfr_min t_obs * ∑ j, calc_age_weights_from_sfh_table t s a t_obs SFR_MIN j * X j| ≤
      (R - 1) * metShift Δ scatter scatter' * (massFormed t s sfr_min t_obs * ∑ j, calc_age_weights_from_sfh_table t s a t_obs SFR_MIN j * X j) := fun X X' hX => by
    rw [← mul_sub, abs_mul, abs_of_pos (massFormed_pos _), mul_left_comm, ← Finset.sum_sub_distrib]
    refine mul_le_mul_of_nonneg_left ((Finset.abs_sum_le_sum_abs _ _).trans ?_) (massFormed_pos _).le
    rw [Finset.mul_sum]
    refine Finset.sum_le_sum fun j _ => ?_
    rw [← mul_sub, abs_mul, abs_of_nonneg (hage.1 j)]
    have := mul_le_mul_of_nonneg_left (hX j) (hage.1 j)
    linarith
  constructor
  · intro h1 h2 h3 sed sed'
    simp only [sed, sed']
    rw [(mix_form (zt := fun _ => 0) (s := s) (flux := flux) (sfr_min := sfr_min) (μ := μ) H (fun _ => by norm_num) l).1,
      (mix_form (zt := fun _ => 0) (s := s) (flux := flux) (sfr_min := sfr_min) (μ := μ') H' (fun _ => by norm_num) l).1]
    exact comb _ _ fun j => light μ μ' j h1 h2 h3
  · intro h1 h2 h3 sed sed'
    simp only [sed, sed']
    rw [(mix_form (s := s) (flux := flux) (sfr_min := sfr_min) (μ := 0) H h1 l).2, (mix_form (s := s) (flux := flux) (sfr_min := sfr_min) (μ := 0) H' h2 l).2]
    have hm : Monotone fun l => Real.logb 10 (t l) := (lgt_strictMono H.times H.start).monotone
    have bd : ∀ (y : Fin (n + 2) → ℝ) (c : ℝ) (x : ℝ), (∀ i, |y i| ≤ c) → |interp x (fun l => Real.logb 10 (t l)) y| ≤ c := fun y c x hy => by
      rw [abs_le]
      exact interp_bounds hm x (-c) c (fun i => (abs_le.1 (hy i)).1) (fun i => (abs_le.1 (hy i)).2)
    refine comb _ _ fun j => light _ _ j (bd zt 7 _ h1) (bd zt' 7 _ h2) ?_
    have := bd (fun i => 1 * zt' i + (-1) * zt i) Δ (Real.logb 10 (birthTime t_obs (a j))) (fun i => by
      rw [show 1 * zt' i + (-1) * zt i = zt' i - zt i by ring]; exact h3 i)
    rw [interp_linear hm] at this
    rwa [show ∀ p q : ℝ, 1 * p + -1 * q = p - q by intro p q; ring] at this

end sed

section filters
open Dsps.Photometry Dsps.Dust
variable [Dtype] {p q : ℕ} {wave f : Fin (p + 2) → ℝ} {fw ft ft' : Fin (q + 1) → ℝ} {lo hi zr Om0 w0 wa hub : ℝ}

lemma trans_between {fw x y : Fin (q + 1) → ℝ} (hw : Monotone fw) {c : ℝ} (h : ∀ i, x i ≤ c * y i) : trapz fw x ≤ c * trapz fw y := by
  rw [← trapz_smul]; exact trapz_mono hw h

lemma flux_between (hw : Monotone wave) (hf : GoodFilter fw ft) (hz : -1 < zr) (hp : ∀ i, 0 ≤ f i) (h : ∀ i, ft' i ≤ hi * ft i) :
    obs_flux_ssp wave f fw ft' zr ≤ hi * obs_flux_ssp wave f fw ft zr ∧ flux_ab0_at_10pc fw ft' ≤ hi * flux_ab0_at_10pc fw ft := by
  constructor
  · unfold obs_flux_ssp
    refine trans_between hf.1 fun i => ?_
    have hm : Monotone fun j => wave j * (1 + zr) := fun i j hij => mul_le_mul_of_nonneg_right (hw hij) (by linarith)
    have l0 : 0 ≤ interpLR (fw i) (fun j => wave j * (1 + zr)) f 0 0 := by
      have := interp0_mono hm (fw i) hp
      have e := interp0_smul (fw i) (fun j => wave j * (1 + zr)) f 0
      simp only [zero_mul] at e
      rwa [e] at this
    have f0 := hf.2.1 i
    have := mul_le_mul_of_nonneg_right (h i) (div_nonneg l0 f0.le)
    simp only
    rw [mul_div_assoc, mul_div_assoc, ← mul_assoc]
    exact this
  · unfold flux_ab0_at_10pc
    refine trans_between hf.1 fun i => ?_
    have f0 := hf.2.1 i
    have := mul_le_mul_of_nonneg_right (h i) (div_nonneg (by norm_num [AB0] : (0:ℝ) ≤ AB0) f0.le)
    rw [mul_div_assoc, mul_div_assoc, ← mul_assoc]
    exact this

/-- C155: **transmission.** If the transmission of a filter is known to within factors `lo` and `hi`, every observed and rest-frame magnitude of a
non-negative spectrum through it is known to within `2.5 log10 (hi/lo)`, and its effective wavelength to within the factor `hi/lo`. -/
theorem C155_transmission (hw : Monotone wave) (hf : GoodFilter fw ft) (hz : -1 < zr) (hp : ∀ i, 0 ≤ f i) (hlo : 0 < lo) (hlh : lo ≤ hi)
    (h : ∀ i, lo * ft i ≤ ft' i ∧ ft' i ≤ hi * ft i) :
    (0 < obs_flux_ssp wave f fw ft zr / flux_ab0_at_10pc fw ft →
      |calc_obs_mag wave f fw ft' zr Om0 w0 wa hub - calc_obs_mag wave f fw ft zr Om0 w0 wa hub| ≤ 2.5 * Real.logb 10 (hi / lo)) ∧
    (0 < calc_rest_flux wave f fw ft → |calc_rest_mag wave f fw ft' - calc_rest_mag wave f fw ft| ≤ 2.5 * Real.logb 10 (hi / lo)) ∧
    (0 < trapz fw ft →
      lo / hi * get_filter_effective_wavelength fw ft zr ≤ get_filter_effective_wavelength fw ft' zr ∧
      get_filter_effective_wavelength fw ft' zr ≤ hi / lo * get_filter_effective_wavelength fw ft zr) := by
  have hhi : 0 < hi := hlo.trans_le hlh
  have hf' : GoodFilter fw ft' := ⟨hf.1, hf.2.1, fun i => (mul_nonneg hlo.le (hf.2.2 i)).trans (h i).1⟩
  have back : ∀ i, ft i ≤ lo⁻¹ * ft' i := fun i => by rw [le_inv_mul_iff₀ hlo]; exact (h i).1
  have ratio : ∀ zr, -1 < zr → 0 < obs_flux_ssp wave f fw ft zr / flux_ab0_at_10pc fw ft →
      0 < obs_flux_ssp wave f fw ft' zr / flux_ab0_at_10pc fw ft' ∧
      |Real.logb 10 (obs_flux_ssp wave f fw ft' zr / flux_ab0_at_10pc fw ft') - Real.logb 10 (obs_flux_ssp wave f fw ft zr / flux_ab0_at_10pc fw ft)| ≤ Real.logb 10 (hi / lo) := fun zr hz hpos => by
    have u := flux_between hw hf hz hp fun i => (h i).2
    have v := flux_between hw hf' hz hp back
    rw [le_inv_mul_iff₀ hlo, le_inv_mul_iff₀ hlo] at v
    have A0 := ab0_nonneg hf
    have hA : 0 < flux_ab0_at_10pc fw ft := lt_of_le_of_ne A0 fun e => by rw [← e, div_zero] at hpos; exact lt_irrefl _ hpos
    have hN : 0 < obs_flux_ssp wave f fw ft zr := by
      by_contra hc
      exact absurd hpos (not_lt.2 (div_nonpos_of_nonpos_of_nonneg (not_lt.1 hc) A0))
    generalize obs_flux_ssp wave f fw ft zr = N at *
    generalize flux_ab0_at_10pc fw ft = D at *
    generalize obs_flux_ssp wave f fw ft' zr = N' at *
    generalize flux_ab0_at_10pc fw ft' = D' at *
    have hN' : 0 < N' := (mul_pos hlo hN).trans_le v.1
    have hD' : 0 < D' := (mul_pos hlo hA).trans_le v.2
    refine ⟨div_pos hN' hD', ?_⟩
    have q1 : N' / D' ≤ hi / lo * (N / D) := by
      rw [div_mul_div_comm]
      exact div_le_div₀ (by positivity) u.1 (by positivity) v.2
    have q2 : N / D ≤ hi / lo * (N' / D') := by
      rw [div_mul_div_comm, div_le_div_iff₀ hA (by positivity)]
      calc N * (lo * D') = (lo * N) * D' := by ring
        _ ≤ N' * (hi * D) := mul_le_mul v.1 u.2 hD'.le hN'.le
        _ = hi * N' * D := by ring
    have l1 := Real.logb_le_logb_of_le (by norm_num : (1:ℝ) < 10) (by positivity) q1
    have l2 := Real.logb_le_logb_of_le (by norm_num : (1:ℝ) < 10) (by positivity) q2
    rw [Real.logb_mul (by positivity) (by positivity)] at l1 l2
    rw [abs_le]; constructor <;> linarith
  refine ⟨fun hpos => ?_, fun hpos => ?_, fun hpos => ?_⟩
  · have := (ratio zr hz hpos).2
    unfold calc_obs_mag Jnp.log10
    simp only
    generalize Real.logb 10 (obs_flux_ssp wave f fw ft' zr / flux_ab0_at_10pc fw ft') = x at *
    generalize Real.logb 10 (obs_flux_ssp wave f fw ft zr / flux_ab0_at_10pc fw ft) = y at *
    rw [abs_le] at this ⊢
    constructor <;> linarith
  · have e : ∀ g : Fin (q + 1) → ℝ, calc_rest_flux wave f fw g = obs_flux_ssp wave f fw g 0 / flux_ab0_at_10pc fw g := fun g => by
      unfold calc_rest_flux; simp only [obs_eq_rest_at_zero]
    have e2 : ∀ g : Fin (q + 1) → ℝ, calc_rest_mag wave f fw g = -2.5 * Real.logb 10 (calc_rest_flux wave f fw g) := fun g => rfl
    rw [e] at hpos
    have := (ratio 0 (by norm_num) hpos).2
    rw [e2, e2, e, e]
    generalize Real.logb 10 (obs_flux_ssp wave f fw ft' 0 / flux_ab0_at_10pc fw ft') = x at *
    generalize Real.logb 10 (obs_flux_ssp wave f fw ft 0 / flux_ab0_at_10pc fw ft) = y at *
    rw [abs_le] at this ⊢
    constructor <;> linarith
  · have n1 := trans_between hf.1 fun i => (h i).2
    have n2 := trans_between hf.1 back
    have m1 : trapz fw (fun i => ft' i * fw i) ≤ hi * trapz fw (fun i => ft i * fw i) := trans_between hf.1 fun i => by
      have := mul_le_mul_of_nonneg_right (h i).2 (hf.2.1 i).le; linarith
    have m2 : trapz fw (fun i => ft i * fw i) ≤ lo⁻¹ * trapz fw (fun i => ft' i * fw i) := trans_between hf.1 fun i => by
      have := mul_le_mul_of_nonneg_right (back i) (hf.2.1 i).le; linarith
    have m0 : 0 ≤ trapz fw (fun i => ft i * fw i) := by
      have h0 : trapz fw (fun _ => (0 : ℝ)) = 0 := by rw [trapz_eq]; simp
      rw [← h0]
      exact trapz_mono hf.1 fun i => mul_nonneg (hf.2.2 i) (hf.2.1 i).le
    rw [le_inv_mul_iff₀ hlo] at n2 m2
    unfold get_filter_effective_wavelength
    simp only
    generalize trapz fw ft = N at *
    generalize trapz fw ft' = N' at *
    generalize trapz fw (fun i => ft i * fw i) = L at *
    generalize trapz fw (fun i => ft' i * fw i) = L' at *
    have hN' : 0 < N' := (mul_pos hlo hpos).trans_le n2
    have hz' : 0 < 1 + zr := by linarith
    have L0' : 0 ≤ L' := (mul_nonneg hlo.le m0).trans m2
    constructor
    · rw [← mul_div_assoc]
      refine div_le_div_of_nonneg_right ?_ hz'.le
      rw [div_mul_div_comm]
      exact div_le_div₀ L0' m2 hN' n1
    · rw [← mul_div_assoc]
      refine div_le_div_of_nonneg_right ?_ hz'.le
      rw [div_mul_div_comm]
      exact div_le_div₀ (by positivity) m1 (by positivity) n2

end filters

section chain
open Dsps.Photometry
variable [Dtype] {p q : ℕ} {wave : Fin (p + 2) → ℝ} {fw ft : Fin (q + 1) → ℝ} {zr Om0 w0 wa hub ε : ℝ}
  {t s zt zt' : Fin (n + 2) → ℝ} {a : Fin (m + 3) → ℝ} {z : Fin (k + 3) → ℝ} {flux : Fin (k + 3) → Fin (m + 3) → Fin (p + 2) → ℝ}
  {t_obs scatter scatter' μ μ' R Δ sfr_min : ℝ}

/-- C155: **magnitudes.** With `ε = (R - 1) (35/96 Δ/σ + 1 - min σ σ' / max σ σ') < 1`, where at every age and wavelength SSPs of different metallicities
differ at most by the factor `R`, a change of the metallicity by at most `Δ` and of the scatter from `σ` to `σ'` moves every observed and rest-frame
magnitude by at most `-2.5 log10 (1 - ε)`. -/
theorem C155_magnitudes (H : SedInputs t a z t_obs scatter) (hσ' : 0 < scatter') (hσ1 : scatter ≤ 1) (hσ1' : scatter' ≤ 1) (hF : ∀ i j l, 0 ≤ flux i j l)
    (hR : ∀ i i' j l, flux i j l ≤ R * flux i' j l) (hε : ε = (R - 1) * metShift Δ scatter scatter') (hε0 : 0 ≤ ε) (hε1 : ε < 1)
    (hw : Monotone wave) (hf : GoodFilter fw ft) (hz : -1 < zr) :
    (|μ| ≤ 7 → |μ'| ≤ 7 → |μ' - μ| ≤ Δ →
      let sed := (calc_rest_sed_sfh_table_lognormal_mdf t s μ scatter z a flux t_obs sfr_min).rest_sed
      let sed' := (calc_rest_sed_sfh_table_lognormal_mdf t s μ' scatter' z a flux t_obs sfr_min).rest_sed
      (0 < obs_flux_ssp wave sed fw ft zr / flux_ab0_at_10pc fw ft →
        |calc_obs_mag wave sed' fw ft zr Om0 w0 wa hub - calc_obs_mag wave sed fw ft zr Om0 w0 wa hub| ≤ -2.5 * Real.logb 10 (1 - ε)) ∧
      (0 < calc_rest_flux wave sed fw ft → |calc_rest_mag wave sed' fw ft - calc_rest_mag wave sed fw ft| ≤ -2.5 * Real.logb 10 (1 - ε))) ∧
    ((∀ i, |zt i| ≤ 7) → (∀ i, |zt' i| ≤ 7) → (∀ i, |zt' i - zt i| ≤ Δ) →
      let sed := (calc_rest_sed_sfh_table_met_table t s zt scatter z a flux t_obs sfr_min).rest_sed
      let sed' := (calc_rest_sed_sfh_table_met_table t s zt' scatter' z a flux t_obs sfr_min).rest_sed
      (0 < obs_flux_ssp wave sed fw ft zr / flux_ab0_at_10pc fw ft →
        |calc_obs_mag wave sed' fw ft zr Om0 w0 wa hub - calc_obs_mag wave sed fw ft zr Om0 w0 wa hub| ≤ -2.5 * Real.logb 10 (1 - ε)) ∧
      (0 < calc_rest_flux wave sed fw ft → |calc_rest_mag wave sed' fw ft - calc_rest_mag wave sed fw ft| ≤ -2.5 * Real.logb 10 (1 - ε))) := by
  have k1 : 0 < 1 - ε := by linarith
  have k2 : 0 < 1 + ε := by linarith
  have lg : Real.logb 10 (1 + ε) ≤ -Real.logb 10 (1 - ε) := by
    rw [← Real.logb_inv]
    refine Real.logb_le_logb_of_le (by norm_num) k2 ?_
    rw [le_inv_comm₀ k2 k1, inv_eq_one_div, le_div_iff₀ k2]
    nlinarith
  have fin : ∀ {x y : ℝ}, x - 2.5 * Real.logb 10 (1 + ε) ≤ y ∧ y ≤ x - 2.5 * Real.logb 10 (1 - ε) → |y - x| ≤ -2.5 * Real.logb 10 (1 - ε) := fun {x y} h => by
    rw [abs_le]
    constructor <;> linarith [h.1, h.2]
  have conv : ∀ {x y : ℝ}, |y - x| ≤ (R - 1) * metShift Δ scatter scatter' * x → (1 - ε) * x ≤ y ∧ y ≤ (1 + ε) * x := fun {x y} h => by
    rw [← hε] at h
    have := abs_le.1 h
    constructor <;> linarith
  have S := fun l => C155_sed (s := s) (sfr_min := sfr_min) (μ := μ) (μ' := μ') (zt := zt) (zt' := zt') (Δ := Δ) H hσ' hσ1 hσ1' hF l fun i i' j => hR i i' j l
  constructor
  · intro h1 h2 h3 sed sed'
    have m1 := C153_magnitudes (Om0 := Om0) (w0 := w0) (wa := wa) (hub := hub) hw hf hz k1 (fun l => conv ((S l).1 h1 h2 h3)) k2
    exact ⟨fun hp => fin (m1.1 hp), fun hp => fin (m1.2 hp)⟩
  · intro h1 h2 h3 sed sed'
    have m1 := C153_magnitudes (Om0 := Om0) (w0 := w0) (wa := wa) (hub := hub) hw hf hz k1 (fun l => conv ((S l).2 h1 h2 h3)) k2
    exact ⟨fun hp => fin (m1.1 hp), fun hp => fin (m1.2 hp)⟩

end chain

/-! ### The hypotheses are met -/
section
attribute [local instance] Dtype.float64
example := C155_lgmet_weights (k := 2) (μ := -2.9) (μ' := -2.85) (by norm_num : (0:ℝ) < 0.2) (by norm_num) (by norm_num) (by norm_num) (by norm_num) caseZ_mild caseZ_lo caseZ_hi
example := C155_scatter (k := 2) (μ := -2.9) (by norm_num : (0:ℝ) < 0.2) (by norm_num : (0.2:ℝ) ≤ 0.21) (by norm_num) (by norm_num) caseZ_mild caseZ_lo caseZ_hi

/-- SSPs of the example library differ by a factor of at most 5 between metallicities -/
theorem caseLib_ratio (i i' : Fin 5) (j l : Fin 3) : caseLib i j l ≤ 5 * caseLib i' j l := by
  unfold caseLib
  rw [← mul_assoc]
  refine mul_le_mul_of_nonneg_right ?_ (caseLum_nonneg l)
  have : ((i : ℕ) : ℝ) ≤ 4 := by exact_mod_cast Nat.lt_succ_iff.1 i.2
  have : (0:ℝ) ≤ (i' : ℕ) := by positivity
  have : (0:ℝ) ≤ (j : ℕ) := by positivity
  linarith

example := C155_magnitudes (n := 1) (m := 0) (k := 2) (p := 1) (q := 2) (sfr_min := 1e-14) (scatter' := 0.2) (Om0 := 0.3) (w0 := -1) (wa := 0) (hub := 0.7) (s := caseS) (μ := -2.9) (μ' := -2.89)
  (zt := fun _ => -2) (zt' := fun _ => -2.01) (Δ := 0.01) (R := 5)
  case_sedInputs (by norm_num) (by norm_num) (by norm_num) (flux := caseLib) (fun i j l => mul_nonneg (by positivity) (caseLum_nonneg l)) caseLib_ratio rfl
  (by norm_num [metShift]) (by norm_num [metShift]) caseWave_mono.monotone case_good (zr := 1 / 2) (by norm_num)
example := C155_transmission (p := 1) (q := 2) (Om0 := 0.3) (w0 := -1) (wa := 0) (hub := 0.7) (ft' := fun i => caseFT i * (1 + 0.01 * (i : ℕ))) (lo := 1) (hi := 1.02)
  caseWave_mono.monotone case_good (zr := 1 / 2) (by norm_num) caseLum_nonneg (by norm_num) (by norm_num) (fun i => by
    have : ((i : ℕ) : ℝ) ≤ 2 := by exact_mod_cast Nat.lt_succ_iff.1 i.2
    have := case_good.2.2 i
    have : (0:ℝ) ≤ (i : ℕ) := by positivity
    norm_num
    constructor <;> nlinarith)
end

end Dsps.Props
