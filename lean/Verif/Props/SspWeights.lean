import Verif.Props.AgeWeights
import Verif.Cases

/-! Properties C21–C26: metallicity weights, joint SSP weights, composite SEDs
(`/repo/dsps/sed/metallicity_weights.py`, `ssp_weights.py`, `stellar_sed.py`). -/
namespace Dsps.Props
open Dsps.Utils Dsps.Lemmas Dsps.StellarAgeWeights Dsps.MetallicityWeights Dsps.SspWeights Dsps.Constants Jnp Spec Set
open scoped BigOperators

variable {n m k w : ℕ}

/-! ## C21 -/

theorem lgmet_singlegal_eq (x sig : ℝ) (e : Fin (k + 2) → ℝ) :
    get_lgmet_weights_singlegal x sig e = get_triweights_singlepoint x sig e := rfl

theorem lgmet_edges_mono (z : Fin (k + 3) → ℝ) (hz : MildlySpaced z) (hlo : -10 < z 0) (hhi : z (Fin.last (k + 2)) < 10) :
    StrictMono (get_bin_edges z LGMET_LO LGMET_HI) :=
  (C05_edges_bracket_partial z hz _ _ (by norm_num [LGMET_LO]; exact hlo) (by norm_num [LGMET_HI]; exact hhi)).1

/-- C21 (`_partial`: needs the metallicity-bin edges to be non-decreasing; on irregular grids a weight can be negative, see
`C21_negative_weight`).  Probability vector for every galaxy metallicity, however far outside the SSP grid. -/
theorem C21_lgmet_weights_prob_partial (gal_lgmet scatter : ℝ) (hs : 0 < scatter) (z : Fin (k + 3) → ℝ)
    (he : Monotone (get_bin_edges z (-10) 10)) :
    IsProbVector (calc_lgmet_weights_from_lognormal_mdf gal_lgmet scatter z) := by
  have e1 : LGMET_LO = -10 := by norm_num [LGMET_LO]
  have e2 : LGMET_HI = 10 := by norm_num [LGMET_HI]
  simp only [calc_lgmet_weights_from_lognormal_mdf, lgmet_singlegal_eq, e1, e2]
  refine C04_triweights_prob gal_lgmet scatter hs _ he ?_
  rw [edges_zero]
  exact lt_of_lt_of_eq (by norm_num) (edges_last z (-10) 10).symm

/-- C21 for every mildly spaced metallicity grid inside (-10, 10). -/
theorem C21_lgmet_weights_prob_mild_partial (gal_lgmet scatter : ℝ) (hs : 0 < scatter) (z : Fin (k + 3) → ℝ)
    (hz : MildlySpaced z) (hlo : -10 < z 0) (hhi : z (Fin.last (k + 2)) < 10) :
    IsProbVector (calc_lgmet_weights_from_lognormal_mdf gal_lgmet scatter z) :=
  C21_lgmet_weights_prob_partial gal_lgmet scatter hs z
    (C05_edges_bracket_partial z hz _ _ hlo hhi).1.monotone

/-- C21: for every metallicity grid whatsoever the weights sum to exactly one if the galaxy is less than three widths
outside (-10, 10). -/
theorem C21_lgmet_weights_sum (gal_lgmet scatter : ℝ) (hs : 0 < scatter) (z : Fin (k + 3) → ℝ)
    (h1 : -10 - 3 * scatter < gal_lgmet) (h2 : gal_lgmet < 10 + 3 * scatter) :
    ∑ i, calc_lgmet_weights_from_lognormal_mdf gal_lgmet scatter z i = 1 := by
  have e1 : LGMET_LO = -10 := by norm_num [LGMET_LO]
  have e2 : LGMET_HI = 10 := by norm_num [LGMET_HI]
  simp only [calc_lgmet_weights_from_lognormal_mdf, lgmet_singlegal_eq, e1, e2]
  have el : get_bin_edges z (-10) 10 (Fin.last (k + 2 + 1)) = 10 := edges_last z (-10) 10
  have hne : ∫ u in (get_bin_edges z (-10) 10 0)..(get_bin_edges z (-10) 10 (Fin.last (k + 2 + 1))),
      triweight_gaussian u gal_lgmet scatter ≠ 0 := by
    rw [edges_zero, el, integral_triweight_gaussian _ _ _ _ hs.ne', tw_cuml_kern_eq, tw_cuml_kern_eq]
    have hlt : (-10 - gal_lgmet) / scatter < (10 - gal_lgmet) / scatter := by gcongr; norm_num
    have ha : (-10 - gal_lgmet) / scatter < 3 := by rw [div_lt_iff₀ hs]; linarith
    have hb : -3 < (10 - gal_lgmet) / scatter := by rw [lt_div_iff₀ hs]; linarith
    apply ne_of_gt
    rw [sub_pos]
    have hm : twC ((-10 - gal_lgmet) / scatter) ≤ twC (max (-3) ((-10 - gal_lgmet) / scatter)) := twC_mono (le_max_right _ _)
    have hM : twC (min 3 ((10 - gal_lgmet) / scatter)) ≤ twC ((10 - gal_lgmet) / scatter) := twC_mono (min_le_right _ _)
    refine lt_of_le_of_lt hm (lt_of_lt_of_le ?_ hM)
    apply twC_strictMonoOn
    · exact ⟨le_max_left _ _, max_le (by norm_num) ha.le⟩
    · exact ⟨le_min (by norm_num) hb.le, min_le_left _ _⟩
    · exact max_lt (lt_min (by norm_num) hb) (lt_min ha hlt)
  have hov := C04_triweights_overlap gal_lgmet scatter hs (get_bin_edges z (-10) 10) hne
  simp only [hov, ← Finset.sum_div]
  simp only [← C03_bin_is_integral gal_lgmet scatter hs]
  rw [(C03_histogram_partition gal_lgmet scatter hs (get_bin_edges z (-10) 10)).1]
  exact div_self hne

/-- C21 is false on irregular grids: SSP metallicities -1, 0, 1, 9.9 give a weight of exactly -1 for a galaxy at -1 with
scatter 0.1. -/
theorem C21_negative_weight : ∃ (z : Fin 4 → ℝ) (gal_lgmet scatter : ℝ), StrictMono z ∧ -10 < z 0 ∧ z 3 < 10 ∧ 0 < scatter ∧
    calc_lgmet_weights_from_lognormal_mdf gal_lgmet scatter z 1 = -1 := by
  refine ⟨![-1, 0, 1, 9.9], -1, 0.1, ?_, by simp, by simp; norm_num, by norm_num, ?_⟩
  · rw [Fin.strictMono_iff_lt_succ]; intro i; fin_cases i <;> simp <;> norm_num
  · have hs : (0:ℝ) < 0.1 := by norm_num
    have e1 : LGMET_LO = -10 := by norm_num [LGMET_LO]
    have e2 : LGMET_HI = 10 := by norm_num [LGMET_HI]
    simp only [calc_lgmet_weights_from_lognormal_mdf, lgmet_singlegal_eq, e1, e2]
    have el : get_bin_edges ![-1, 0, 1, 9.9] (-10) 10 (Fin.last (1 + 2 + 1)) = 10 := edges_last _ (-10) 10
    have ea : get_bin_edges ![-1, 0, 1, 9.9] (-10) 10 (Fin.castSucc 1) = -1/2 :=
      (edges_interior (n := 1) ![-1, 0, 1, 9.9] (-10) 10 0).trans (by simp; norm_num)
    have eb : get_bin_edges ![-1, 0, 1, 9.9] (-10) 10 (Fin.succ 1) = 1 - 9.9/4 :=
      (edges_interior (n := 1) ![-1, 0, 1, 9.9] (-10) 10 1).trans (by simp)
    have I : ∀ a b : ℝ, a ≤ -1 - 3 * 0.1 → -1 + 3 * 0.1 ≤ b → ∫ u in a..b, triweight_gaussian u (-1) 0.1 = 1 :=
      fun a b h1 h2 => C02_triweight_integral_one (-1) 0.1 a b hs h1 h2
    have htot := I (get_bin_edges ![-1, 0, 1, 9.9] (-10) 10 0) (get_bin_edges ![-1, 0, 1, 9.9] (-10) 10 (Fin.last (1 + 2 + 1)))
      (by rw [edges_zero]; norm_num) (by rw [el]; norm_num)
    have := C04_triweights_overlap (-1) 0.1 hs (get_bin_edges ![-1, 0, 1, 9.9] (-10) 10) (by rw [htot]; norm_num) 1
    rw [htot, ea, eb, intervalIntegral.integral_symm, I _ _ (by norm_num) (by norm_num)] at this
    exact this.trans (by norm_num)

example : ∃ z : Fin 5 → ℝ, MildlySpaced z ∧ -10 < z 0 ∧ z (Fin.last 4) < 10 :=
  ⟨fun i => -4 + i * 0.5, mildlySpaced_uniform (n := 2) (-4) 0.5 (by norm_num), by norm_num, by norm_num⟩

/-! ## C22 -/

/-- C22 (`_partial`, same proviso on the metallicity-bin edges as C21): the (n_met, n_age) matrix is non-negative, every
age column sums to 1/n_age, and the grand total is one. -/
theorem C22_lgmet_table_weights_partial [Dtype] (t zt : Fin (n + 2) → ℝ) (scatter : ℝ) (hs : 0 < scatter) (z : Fin (k + 3) → ℝ)
    (a : Fin (m + 1) → ℝ) (t_obs : ℝ) (he : Monotone (get_bin_edges z (-10) 10)) :
    (∀ i j, 0 ≤ calc_lgmet_weights_from_lgmet_table t zt scatter z a t_obs i j) ∧
    (∀ j, ∑ i, calc_lgmet_weights_from_lgmet_table t zt scatter z a t_obs i j = 1 / ((m : ℝ) + 1)) ∧
    ∑ i, ∑ j, calc_lgmet_weights_from_lgmet_table t zt scatter z a t_obs i j = 1 := by
  have hm : (0:ℝ) < (m : ℝ) + 1 := by positivity
  have hcol : ∀ j, IsProbVector (fun i => get_lgmet_weights_singlegal_zh
      (calc_lgmet_at_ssp_lgage_table t zt a t_obs) scatter (get_bin_edges z LGMET_LO LGMET_HI) j i) := fun j =>
    C21_lgmet_weights_prob_partial (calc_lgmet_at_ssp_lgage_table t zt a t_obs j) scatter hs z he
  have hsum : ∀ j, ∑ i, calc_lgmet_weights_from_lgmet_table t zt scatter z a t_obs i j = 1 / ((m : ℝ) + 1) := by
    intro j
    simp only [calc_lgmet_weights_from_lgmet_table, ← Finset.sum_div]
    rw [(hcol j).2]; push_cast; rfl
  refine ⟨fun i j => ?_, hsum, ?_⟩
  · simp only [calc_lgmet_weights_from_lgmet_table]
    exact div_nonneg ((hcol j).1 i) (by positivity)
  · rw [Finset.sum_comm]
    simp only [hsum]
    simp; field_simp

/-- C22: each column is the single-metallicity weight vector of the metallicity at that column's birth time (interpolated
in log time), divided by the number of ages. -/
theorem C22_lgmet_table_columns [Dtype] (t zt : Fin (n + 2) → ℝ) (scatter : ℝ) (z : Fin (k + 3) → ℝ) (a : Fin m → ℝ) (t_obs : ℝ)
    (i : Fin (k + 3)) (j : Fin m) :
    calc_lgmet_weights_from_lgmet_table t zt scatter z a t_obs i j =
      calc_lgmet_weights_from_lognormal_mdf
        (interp (Real.logb 10 (birthTime t_obs (a j))) (fun l => Real.logb 10 (t l)) zt) scatter z i / m := by
  simp only [calc_lgmet_weights_from_lgmet_table, calc_lgmet_weights_from_lognormal_mdf, get_lgmet_weights_singlegal_zh, vmap,
    calc_lgmet_at_ssp_lgage_table, get_lgt_birth_eq]
  rfl

/-- C22: the metallicity assigned to each age lies within the range of the metallicity history. -/
theorem C22_lgmet_at_age_range [Dtype] (t zt : Fin (n + 2) → ℝ) (a : Fin m → ℝ) (t_obs lo hi : ℝ) (ht : StrictMono t)
    (ht0 : 0.001 < t 0) (hlo : ∀ i, lo ≤ zt i) (hhi : ∀ i, zt i ≤ hi) (j : Fin m) :
    lo ≤ calc_lgmet_at_ssp_lgage_table t zt a t_obs j ∧ calc_lgmet_at_ssp_lgage_table t zt a t_obs j ≤ hi :=
  interp_bounds (lgt_strictMono ht ht0).monotone _ lo hi hlo hhi

/-! ## C23 -/

theorem sum2_eq {a b : ℕ} (x : Fin a → Fin b → ℝ) : sum2 x = ∑ i, ∑ j, x i j := rfl

/-- C23: with normalised age and metallicity weights (C17, C21) the joint weights are exactly the outer product, form a
probability matrix, and have the two weight vectors as marginals. -/
theorem C23_joint_weights_lognormal [Dtype] (t s : Fin (n + 2) → ℝ) (gal_lgmet scatter : ℝ) (z : Fin (k + 3) → ℝ)
    (a : Fin (m + 3) → ℝ) (t_obs : ℝ)
    (hage : IsProbVector (calc_age_weights_from_sfh_table t s a t_obs))
    (hmet : IsProbVector (calc_lgmet_weights_from_lognormal_mdf gal_lgmet scatter z)) :
    let W := calc_ssp_weights_sfh_table_lognormal_mdf t s gal_lgmet scatter z a t_obs
    W.age_weights = calc_age_weights_from_sfh_table t s a t_obs ∧
    W.lgmet_weights = calc_lgmet_weights_from_lognormal_mdf gal_lgmet scatter z ∧
    (∀ i j, W.weights i j = W.lgmet_weights i * W.age_weights j) ∧
    IsProbMatrix W.weights ∧
    (∀ i, ∑ j, W.weights i j = W.lgmet_weights i) ∧ (∀ j, ∑ i, W.weights i j = W.age_weights j) := by
  intro W
  have htot : sum2 (fun i j => calc_lgmet_weights_from_lognormal_mdf gal_lgmet scatter z i *
      calc_age_weights_from_sfh_table t s a t_obs SFR_MIN j) = 1 := by
    rw [sum2_eq, ← Finset.sum_mul_sum, hage.2, hmet.2, one_mul]
  have hw : ∀ i j, W.weights i j = W.lgmet_weights i * W.age_weights j := by
    intro i j
    simp only [W, calc_ssp_weights_sfh_table_lognormal_mdf]
    rw [htot, div_one]
  have hA : W.age_weights = calc_age_weights_from_sfh_table t s a t_obs := rfl
  have hL : W.lgmet_weights = calc_lgmet_weights_from_lognormal_mdf gal_lgmet scatter z := rfl
  refine ⟨rfl, rfl, hw, ⟨fun i j => ?_, ?_⟩, fun i => ?_, fun j => ?_⟩
  · rw [hw, hA, hL]; exact mul_nonneg (hmet.1 i) (hage.1 j)
  · simp only [hw]
    rw [← Finset.sum_mul_sum, hA, hL, hage.2, hmet.2, one_mul]
  · simp only [hw, ← Finset.mul_sum]
    rw [hA, hage.2, mul_one]
  · simp only [hw, ← Finset.sum_mul]
    rw [hL, hmet.2, one_mul]

/-- C23 end to end: hypotheses on the raw inputs only. -/
theorem C23_joint_weights_lognormal_inputs [Dtype] (t s : Fin (n + 2) → ℝ) (gal_lgmet scatter : ℝ) (z : Fin (k + 3) → ℝ)
    (a : Fin (m + 3) → ℝ) (t_obs : ℝ)
    (ht : StrictMono t) (ht0 : 0.001 < t 0) (hr : Resolved fun i => Real.logb 10 (t i)) (ha : MildlySpaced a)
    (hyoung : t 0 < t_obs - (10:ℝ) ^ (get_lg_age_bin_edges a 0))
    (hold : t_obs - (10:ℝ) ^ (get_lg_age_bin_edges a (Fin.last (m + 3))) < t (Fin.last (n + 1)))
    (hs : 0 < scatter) (hz : MildlySpaced z) (hlo : -10 < z 0) (hhi : z (Fin.last (k + 2)) < 10) :
    IsProbMatrix (calc_ssp_weights_sfh_table_lognormal_mdf t s gal_lgmet scatter z a t_obs).weights :=
  (C23_joint_weights_lognormal t s gal_lgmet scatter z a t_obs
    (C17_age_weights_prob_mild_partial t s a t_obs ht ht0 hr ha hyoung hold)
    (C21_lgmet_weights_prob_mild_partial gal_lgmet scatter hs z hz hlo hhi)).2.2.2.1

/-- C23 on every grid: with a metallicity less than three widths outside (-10, 10) and age bins meeting the SFH table, the
joint weights are exactly the outer product, add up to one and have the two weight vectors as marginals, however irregular
the two (strictly increasing age, arbitrary metallicity) grids are; only non-negativity needs the mild spacing of
`C23_joint_weights_lognormal_inputs`. -/
theorem C23_factorisation_any_grid [Dtype] (t s : Fin (n + 2) → ℝ) (gal_lgmet scatter : ℝ) (z : Fin (k + 3) → ℝ)
    (a : Fin (m + 3) → ℝ) (t_obs : ℝ)
    (ht : StrictMono t) (ht0 : 0.001 < t 0) (hr : Resolved fun i => Real.logb 10 (t i)) (ha : StrictMono a)
    (hyoung : t 0 < t_obs - (10:ℝ) ^ (get_lg_age_bin_edges a 0))
    (hold : t_obs - (10:ℝ) ^ (get_lg_age_bin_edges a (Fin.last (m + 3))) < t (Fin.last (n + 1)))
    (hs : 0 < scatter) (h1 : -10 - 3 * scatter < gal_lgmet) (h2 : gal_lgmet < 10 + 3 * scatter) :
    let W := calc_ssp_weights_sfh_table_lognormal_mdf t s gal_lgmet scatter z a t_obs
    (∀ i j, W.weights i j = calc_lgmet_weights_from_lognormal_mdf gal_lgmet scatter z i *
      calc_age_weights_from_sfh_table t s a t_obs SFR_MIN j) ∧
    ∑ i, ∑ j, W.weights i j = 1 ∧
    (∀ i, ∑ j, W.weights i j = calc_lgmet_weights_from_lognormal_mdf gal_lgmet scatter z i) ∧
    (∀ j, ∑ i, W.weights i j = calc_age_weights_from_sfh_table t s a t_obs SFR_MIN j) := by
  intro W
  have hage := C17_age_weights_sum t s a t_obs SFR_MIN (by norm_num [SFR_MIN]) ht ht0 hr ha hyoung hold
  have hmet := C21_lgmet_weights_sum gal_lgmet scatter hs z h1 h2
  have hw : ∀ i j, W.weights i j = calc_lgmet_weights_from_lognormal_mdf gal_lgmet scatter z i *
      calc_age_weights_from_sfh_table t s a t_obs SFR_MIN j := by
    intro i j
    have htot : sum2 (fun i j => calc_lgmet_weights_from_lognormal_mdf gal_lgmet scatter z i *
        calc_age_weights_from_sfh_table t s a t_obs SFR_MIN j) = 1 := by
      rw [sum2_eq, ← Finset.sum_mul_sum, hage, hmet, one_mul]
    simp only [W, calc_ssp_weights_sfh_table_lognormal_mdf]
    rw [htot, div_one]
  refine ⟨hw, ?_, fun i => ?_, fun j => ?_⟩
  · simp only [hw]; rw [← Finset.sum_mul_sum, hage, hmet, one_mul]
  · simp only [hw, ← Finset.mul_sum]; rw [hage, mul_one]
  · simp only [hw, ← Finset.sum_mul]; rw [hmet, one_mul]

/-! ## C24 -/

/-- C24: with normalised age weights, the joint weights of the metallicity-table variant form a probability matrix whose
column sums are exactly the age weights, whatever the metallicity history. -/
theorem C24_joint_weights_met_table [Dtype] (t s zt : Fin (n + 2) → ℝ) (scatter : ℝ) (hs : 0 < scatter) (z : Fin (k + 3) → ℝ)
    (a : Fin (m + 3) → ℝ) (t_obs : ℝ) (he : Monotone (get_bin_edges z (-10) 10))
    (hage : IsProbVector (calc_age_weights_from_sfh_table t s a t_obs)) :
    let W := calc_ssp_weights_sfh_table_met_table t s zt scatter z a t_obs
    W.age_weights = calc_age_weights_from_sfh_table t s a t_obs ∧
    IsProbMatrix W.weights ∧ (∀ j, ∑ i, W.weights i j = W.age_weights j) := by
  intro W
  have hL := C22_lgmet_table_weights_partial (m := m + 2) t zt scatter hs z a t_obs he
  have hm : (0:ℝ) < ((m + 2 : ℕ) : ℝ) + 1 := by positivity
  have hcol : ∀ j, ∑ i, calc_lgmet_weights_from_lgmet_table t zt scatter z a t_obs i j *
      calc_age_weights_from_sfh_table t s a t_obs SFR_MIN j =
      1 / (((m + 2 : ℕ) : ℝ) + 1) * calc_age_weights_from_sfh_table t s a t_obs SFR_MIN j := by
    intro j; rw [← Finset.sum_mul, hL.2.1]
  have htot : sum2 (fun i j => calc_lgmet_weights_from_lgmet_table t zt scatter z a t_obs i j *
      calc_age_weights_from_sfh_table t s a t_obs SFR_MIN j) = 1 / (((m + 2 : ℕ) : ℝ) + 1) := by
    rw [sum2_eq, Finset.sum_comm]
    simp only [hcol, ← Finset.mul_sum, hage.2, mul_one]
  have hcolW : ∀ j, ∑ i, W.weights i j = W.age_weights j := by
    intro j
    simp only [W, calc_ssp_weights_sfh_table_met_table]
    rw [htot, ← Finset.sum_div, hcol]
    field_simp
  refine ⟨rfl, ⟨fun i j => ?_, ?_⟩, hcolW⟩
  · simp only [W, calc_ssp_weights_sfh_table_met_table]
    rw [htot]
    exact div_nonneg (mul_nonneg (hL.1 i j) (hage.1 j)) (by positivity)
  · rw [Finset.sum_comm]
    simp only [hcolW]
    exact hage.2

/-- C24 on every grid: for a metallicity history within (-10, 10) and age bins meeting the SFH table, entry (i, j) of the
joint weights is the age weight of j times the single-metallicity weight i of the metallicity the galaxy had when the stars
of age j were born (interpolated in log time); they add up to one and column j adds up to the age weight of j. No condition
on the metallicity grid. -/
theorem C24_factorisation_any_grid [Dtype] (t s zt : Fin (n + 2) → ℝ) (scatter : ℝ) (z : Fin (k + 3) → ℝ)
    (a : Fin (m + 3) → ℝ) (t_obs : ℝ)
    (ht : StrictMono t) (ht0 : 0.001 < t 0) (hr : Resolved fun i => Real.logb 10 (t i)) (ha : StrictMono a)
    (hyoung : t 0 < t_obs - (10:ℝ) ^ (get_lg_age_bin_edges a 0))
    (hold : t_obs - (10:ℝ) ^ (get_lg_age_bin_edges a (Fin.last (m + 3))) < t (Fin.last (n + 1)))
    (hs : 0 < scatter) (hzlo : ∀ i, -10 ≤ zt i) (hzhi : ∀ i, zt i ≤ 10) :
    let W := calc_ssp_weights_sfh_table_met_table t s zt scatter z a t_obs
    let metAtBirth := fun j => interp (Real.logb 10 (birthTime t_obs (a j))) (fun l => Real.logb 10 (t l)) zt
    (∀ i j, W.weights i j = calc_lgmet_weights_from_lognormal_mdf (metAtBirth j) scatter z i *
      calc_age_weights_from_sfh_table t s a t_obs SFR_MIN j) ∧
    ∑ i, ∑ j, W.weights i j = 1 ∧
    (∀ j, ∑ i, W.weights i j = calc_age_weights_from_sfh_table t s a t_obs SFR_MIN j) := by
  intro W metAtBirth
  have hage := C17_age_weights_sum t s a t_obs SFR_MIN (by norm_num [SFR_MIN]) ht ht0 hr ha hyoung hold
  have hm : (0:ℝ) < ((m + 3 : ℕ) : ℝ) := by positivity
  have hrange : ∀ j, -10 ≤ metAtBirth j ∧ metAtBirth j ≤ 10 := by
    intro j
    have := C22_lgmet_at_age_range t zt a t_obs (-10) 10 ht ht0 hzlo hzhi j
    simp only [calc_lgmet_at_ssp_lgage_table, get_lgt_birth_eq] at this
    exact this
  have hsum : ∀ j, ∑ i, calc_lgmet_weights_from_lognormal_mdf (metAtBirth j) scatter z i = 1 := fun j =>
    C21_lgmet_weights_sum _ scatter hs z (by linarith [(hrange j).1]) (by linarith [(hrange j).2])
  have htot : sum2 (fun i j => calc_lgmet_weights_from_lgmet_table t zt scatter z a t_obs i j *
      calc_age_weights_from_sfh_table t s a t_obs SFR_MIN j) = 1 / ((m + 3 : ℕ) : ℝ) := by
    rw [sum2_eq, Finset.sum_comm]
    have : ∀ j, ∑ i, calc_lgmet_weights_from_lgmet_table t zt scatter z a t_obs i j *
        calc_age_weights_from_sfh_table t s a t_obs SFR_MIN j =
        1 / ((m + 3 : ℕ) : ℝ) * calc_age_weights_from_sfh_table t s a t_obs SFR_MIN j := by
      intro j
      simp only [C22_lgmet_table_columns]
      rw [← Finset.sum_mul, ← Finset.sum_div, hsum]
    simp only [this, ← Finset.mul_sum, hage, mul_one]
  have hw : ∀ i j, W.weights i j = calc_lgmet_weights_from_lognormal_mdf (metAtBirth j) scatter z i *
      calc_age_weights_from_sfh_table t s a t_obs SFR_MIN j := by
    intro i j
    simp only [W, calc_ssp_weights_sfh_table_met_table]
    rw [htot, C22_lgmet_table_columns]
    simp only [metAtBirth]
    field_simp
  have hcol : ∀ j, ∑ i, W.weights i j = calc_age_weights_from_sfh_table t s a t_obs SFR_MIN j := by
    intro j
    simp only [hw, ← Finset.sum_mul]
    rw [hsum, one_mul]
  refine ⟨hw, ?_, hcol⟩
  rw [Finset.sum_comm]
  simp only [hcol]
  exact hage

/-! ## C25 -/

/-- C25: the SED of either function is the mass normalisation times the weighted sum of SSP fluxes, wavelength by
wavelength. -/
theorem C25_sed_formula [Dtype] (t s zt : Fin (n + 2) → ℝ) (gal_lgmet scatter : ℝ) (z : Fin (k + 3) → ℝ)
    (a : Fin (m + 3) → ℝ) (flux : Fin (k + 3) → Fin (m + 3) → Fin w → ℝ) (t_obs sfr_min : ℝ) (l : Fin w) :
    (let R := calc_rest_sed_sfh_table_lognormal_mdf t s gal_lgmet scatter z a flux t_obs sfr_min
     R.rest_sed l = massFormed t s sfr_min t_obs * ∑ i, ∑ j, R.weights i j * flux i j l) ∧
    (let R := calc_rest_sed_sfh_table_met_table t s zt scatter z a flux t_obs sfr_min
     R.rest_sed l = massFormed t s sfr_min t_obs * ∑ i, ∑ j, R.weights i j * flux i j l) := by
  constructor
  · simp only [calc_rest_sed_sfh_table_lognormal_mdf, sum2_eq, mstar_obs, ← massFormed_eq]
    rw [mul_comm]
    congr 1
    exact Finset.sum_congr rfl fun i _ => Finset.sum_congr rfl fun j _ => mul_comm _ _
  · simp only [calc_rest_sed_sfh_table_met_table, sum2_eq, mstar_obs, ← massFormed_eq]
    rw [mul_comm]
    congr 1
    exact Finset.sum_congr rfl fun i _ => Finset.sum_congr rfl fun j _ => mul_comm _ _

theorem weighted_mean_bounds {a b : ℕ} (W f : Fin a → Fin b → ℝ) (hW : IsProbMatrix W) (lo hi : ℝ)
    (hlo : ∀ i j, lo ≤ f i j) (hhi : ∀ i j, f i j ≤ hi) :
    lo ≤ ∑ i, ∑ j, W i j * f i j ∧ ∑ i, ∑ j, W i j * f i j ≤ hi := by
  constructor
  · calc lo = ∑ i, ∑ j, W i j * lo := by simp only [← Finset.sum_mul, hW.2, one_mul]
      _ ≤ _ := Finset.sum_le_sum fun i _ => Finset.sum_le_sum fun j _ => mul_le_mul_of_nonneg_left (hlo i j) (hW.1 i j)
  · calc ∑ i, ∑ j, W i j * f i j ≤ ∑ i, ∑ j, W i j * hi :=
          Finset.sum_le_sum fun i _ => Finset.sum_le_sum fun j _ => mul_le_mul_of_nonneg_left (hhi i j) (hW.1 i j)
      _ = hi := by simp only [← Finset.sum_mul, hW.2, one_mul]

/-- C25: with normalised weights (C23/C24) the SED at each wavelength lies between the mass times the smallest and the mass
times the largest SSP flux at that wavelength; if all SSPs agree there, it is the mass times the common flux. Both SED
functions. -/
theorem C25_sed_between [Dtype] (t s zt : Fin (n + 2) → ℝ) (gal_lgmet scatter : ℝ) (z : Fin (k + 3) → ℝ)
    (a : Fin (m + 3) → ℝ) (flux : Fin (k + 3) → Fin (m + 3) → Fin w → ℝ) (t_obs sfr_min : ℝ) (l : Fin w) (lo hi : ℝ)
    (hlo : ∀ i j, lo ≤ flux i j l) (hhi : ∀ i j, flux i j l ≤ hi) :
    (IsProbMatrix (calc_ssp_weights_sfh_table_lognormal_mdf t s gal_lgmet scatter z a t_obs).weights →
      massFormed t s sfr_min t_obs * lo ≤
        (calc_rest_sed_sfh_table_lognormal_mdf t s gal_lgmet scatter z a flux t_obs sfr_min).rest_sed l ∧
      (calc_rest_sed_sfh_table_lognormal_mdf t s gal_lgmet scatter z a flux t_obs sfr_min).rest_sed l
        ≤ massFormed t s sfr_min t_obs * hi) ∧
    (IsProbMatrix (calc_ssp_weights_sfh_table_met_table t s zt scatter z a t_obs).weights →
      massFormed t s sfr_min t_obs * lo ≤
        (calc_rest_sed_sfh_table_met_table t s zt scatter z a flux t_obs sfr_min).rest_sed l ∧
      (calc_rest_sed_sfh_table_met_table t s zt scatter z a flux t_obs sfr_min).rest_sed l
        ≤ massFormed t s sfr_min t_obs * hi) := by
  have hM : 0 ≤ massFormed t s sfr_min t_obs := (massFormed_pos _).le
  have F := C25_sed_formula t s zt gal_lgmet scatter z a flux t_obs sfr_min l
  constructor
  · intro hW
    rw [F.1]
    have := weighted_mean_bounds _ (fun i j => flux i j l) hW lo hi hlo hhi
    exact ⟨mul_le_mul_of_nonneg_left this.1 hM, mul_le_mul_of_nonneg_left this.2 hM⟩
  · intro hW
    rw [F.2]
    have := weighted_mean_bounds _ (fun i j => flux i j l) hW lo hi hlo hhi
    exact ⟨mul_le_mul_of_nonneg_left this.1 hM, mul_le_mul_of_nonneg_left this.2 hM⟩

/-- C25: common spectrum. -/
theorem C25_sed_common_spectrum [Dtype] (t s zt : Fin (n + 2) → ℝ) (gal_lgmet scatter : ℝ) (z : Fin (k + 3) → ℝ)
    (a : Fin (m + 3) → ℝ) (f : Fin w → ℝ) (t_obs sfr_min : ℝ) :
    (IsProbMatrix (calc_ssp_weights_sfh_table_lognormal_mdf t s gal_lgmet scatter z a t_obs).weights →
      (calc_rest_sed_sfh_table_lognormal_mdf t s gal_lgmet scatter z a (fun _ _ => f) t_obs sfr_min).rest_sed
        = fun l => massFormed t s sfr_min t_obs * f l) ∧
    (IsProbMatrix (calc_ssp_weights_sfh_table_met_table t s zt scatter z a t_obs).weights →
      (calc_rest_sed_sfh_table_met_table t s zt scatter z a (fun _ _ => f) t_obs sfr_min).rest_sed
        = fun l => massFormed t s sfr_min t_obs * f l) := by
  constructor <;> intro hW <;> funext l
  · have := (C25_sed_between t s zt gal_lgmet scatter z a (fun _ _ => f) t_obs sfr_min l (f l) (f l) (fun _ _ => le_rfl)
      (fun _ _ => le_rfl)).1 hW
    exact le_antisymm this.2 this.1
  · have := (C25_sed_between t s zt gal_lgmet scatter z a (fun _ _ => f) t_obs sfr_min l (f l) (f l) (fun _ _ => le_rfl)
      (fun _ _ => le_rfl)).2 hW
    exact le_antisymm this.2 this.1

/-- C25: linear in the flux cube, and wavelengths do not interact: the SED at `l` depends on the cube only at `l`. -/
theorem C25_sed_linear_local [Dtype] (t s zt : Fin (n + 2) → ℝ) (gal_lgmet scatter : ℝ) (z : Fin (k + 3) → ℝ)
    (a : Fin (m + 3) → ℝ) (f g : Fin (k + 3) → Fin (m + 3) → Fin w → ℝ) (c d t_obs sfr_min : ℝ) (l : Fin w) :
    let S1 := fun F => (calc_rest_sed_sfh_table_lognormal_mdf (w := w) t s gal_lgmet scatter z a F t_obs sfr_min).rest_sed l
    let S2 := fun F => (calc_rest_sed_sfh_table_met_table (w := w) t s zt scatter z a F t_obs sfr_min).rest_sed l
    S1 (fun i j l => c * f i j l + d * g i j l) = c * S1 f + d * S1 g ∧
    S2 (fun i j l => c * f i j l + d * g i j l) = c * S2 f + d * S2 g ∧
    ((∀ i j, f i j l = g i j l) → S1 f = S1 g ∧ S2 f = S2 g) := by
  intro S1 S2
  have lin : ∀ W : Fin (k + 3) → Fin (m + 3) → ℝ, ∀ M : ℝ,
      M * ∑ i, ∑ j, W i j * (c * f i j l + d * g i j l) =
      c * (M * ∑ i, ∑ j, W i j * f i j l) + d * (M * ∑ i, ∑ j, W i j * g i j l) := by
    intro W M
    have : ∑ i, ∑ j, W i j * (c * f i j l + d * g i j l) =
        c * (∑ i, ∑ j, W i j * f i j l) + d * ∑ i, ∑ j, W i j * g i j l := by
      simp only [Finset.mul_sum, ← Finset.sum_add_distrib]
      exact Finset.sum_congr rfl fun i _ => Finset.sum_congr rfl fun j _ => by ring
    rw [this]; ring
  refine ⟨?_, ?_, fun h => ⟨?_, ?_⟩⟩
  · simp only [S1, (C25_sed_formula t s zt gal_lgmet scatter z a _ t_obs sfr_min l).1]
    exact lin _ _
  · simp only [S2, (C25_sed_formula t s zt gal_lgmet scatter z a _ t_obs sfr_min l).2]
    exact lin _ _
  · simp only [S1, calc_rest_sed_sfh_table_lognormal_mdf, h]
  · simp only [S2, calc_rest_sed_sfh_table_met_table, h]

/-! ## C26 -/

/-- C26: when `t_obs` is a table time the mass factor (see C25_sed_formula) is exactly the cumulative mass formed at that
time; before the table it is the first entry, after the table the last; in between it increases with `t_obs`. -/
theorem C26_mass_normalisation [Dtype] (t s : Fin (n + 2) → ℝ) (sfr_min : ℝ) (ht : StrictMono t) (ht0 : 0.001 < t 0)
    (hs : 0 < sfr_min) (hr : Resolved fun i => Real.logb 10 (t i)) :
    let M := cumulative_mstar_formed t (fun j => max sfr_min (s j))
    (∀ k, massFormed t s sfr_min (t k) = M k) ∧
    (∀ τ, 0 < τ → τ ≤ t 0 → massFormed t s sfr_min τ = M 0) ∧
    (∀ τ, t (Fin.last (n + 1)) ≤ τ → massFormed t s sfr_min τ = M (Fin.last (n + 1))) ∧
    StrictMonoOn (massFormed t s sfr_min) (Icc (t 0) (t (Fin.last (n + 1)))) := by
  refine ⟨fun k => massFormed_table ht ht0 hs hr k, fun τ h0 h => ?_, fun τ h => ?_, ?_⟩
  · rw [massFormed_before ht ht0 h0 h]; exact massFormed_table ht ht0 hs hr 0
  · rw [massFormed_after ht ht0 hr h]; exact massFormed_table ht ht0 hs hr _
  · intro τ hτ τ' hτ' h
    exact massFormed_strictMonoOn ht ht0 hs hr hτ.1 h hτ'.2

/-- C26, finding: the `sfr_min` argument of the SED functions changes only the normalisation; the returned weights are the
same for all `sfr_min`, and are those computed with the default `SFR_MIN`. -/
theorem C26_weights_ignore_sfr_min [Dtype] (t s zt : Fin (n + 2) → ℝ) (gal_lgmet scatter : ℝ) (z : Fin (k + 3) → ℝ)
    (a : Fin (m + 3) → ℝ) (flux : Fin (k + 3) → Fin (m + 3) → Fin w → ℝ) (t_obs sfr_min : ℝ) :
    (calc_rest_sed_sfh_table_lognormal_mdf t s gal_lgmet scatter z a flux t_obs sfr_min).age_weights
      = calc_age_weights_from_sfh_table t s a t_obs SFR_MIN ∧
    (calc_rest_sed_sfh_table_met_table t s zt scatter z a flux t_obs sfr_min).age_weights
      = calc_age_weights_from_sfh_table t s a t_obs SFR_MIN := ⟨rfl, rfl⟩

/-- C26, finding (refutes "sfr_min affects weights and normalisation alike"): a quenched galaxy for which the age weights
returned by the SED function differ from `calc_age_weights_from_sfh_table` called with the same `sfr_min`. -/
theorem C26_sfr_min_inconsistent : ∃ (t s : Fin 2 → ℝ) (a : Fin 3 → ℝ) (t_obs sfr_min : ℝ), StrictMono t ∧ 0.001 < t 0 ∧
    0 < sfr_min ∧
    @calc_age_weights_from_sfh_table 0 0 Dtype.float64 t s a t_obs sfr_min ≠
    (@calc_rest_sed_sfh_table_lognormal_mdf 0 0 0 1 Dtype.float64 t s 0 1 (fun i => i) a (fun _ _ _ => 1) t_obs sfr_min).age_weights := by
  let _ := Dtype.float64
  let t : Fin 2 → ℝ := fun i => (10:ℝ) ^ (i : ℕ)
  let s : Fin 2 → ℝ := fun _ => 0
  let a : Fin 3 → ℝ := fun i => (0.5:ℝ) + i * 1
  have ht : StrictMono t := strictMono_pow10 2
  have t0 : t 0 = 1 := by simp [t]
  have t1 : t 1 = 10 := by simp [t]
  have ht0 : (0.001:ℝ) < t 0 := by norm_num [t]
  have hr : Resolved fun i => Real.logb 10 (t i) := resolved_pow10 0
  have he : ∀ i : Fin 4, get_lg_age_bin_edges a i = i := by
    intro i
    rw [lg_age_edges_eq]
    rcases i.eq_castSucc_or_eq_last with ⟨j, hj⟩ | hj
    · subst hj
      rcases j.eq_zero_or_eq_succ with h | ⟨l, h⟩
      · subst h; rw [Fin.castSucc_zero, edges_zero]; simp [a]; norm_num
      · subst h; rw [edges_succ, C06_uniform (n := 0)]; simp [a]; ring
    · subst hj; rw [edges_last, C06_uniform (n := 0)]; simp [a]; norm_num
  -- geometric mid-point of the table
  have hq : (0:ℝ) < Real.sqrt 10 := Real.sqrt_pos.mpr (by norm_num)
  have hq2 : Real.sqrt 10 * Real.sqrt 10 = 10 := Real.mul_self_sqrt (by norm_num)
  have hq1 : 1 < Real.sqrt 10 := by nlinarith
  have hq10 : Real.sqrt 10 < 10 := by nlinarith
  have mass0 : ∀ σ : ℝ, 0 < σ → massFormed t s σ 1 = 1e9 * trapezoidArea 0.001 1 1e-14 σ := by
    intro σ hσ
    have := massFormed_table (s := s) ht ht0 hσ hr 0
    rw [t0] at this
    rw [this, (C12_mstar_formula t _).1, t0]
    simp only [s, max_eq_left hσ.le]
  have mass1 : ∀ σ : ℝ, 0 < σ → massFormed t s σ 10 = massFormed t s σ 1 + 1e9 * (9 * σ) := by
    intro σ hσ
    have := massFormed_table (s := s) ht ht0 hσ hr 1
    rw [t1] at this
    have h2 := (C12_mstar_formula t (fun j => max σ (s j))).2 0
    have h3 := massFormed_table (s := s) ht ht0 hσ hr 0
    rw [t0] at h3
    rw [this, h3]
    simp only [Fin.succ_zero_eq_one, Fin.castSucc_zero] at h2
    rw [h2, t0, t1]
    simp only [s, max_eq_left hσ.le, trapezoidArea]; ring
  have massM : ∀ σ : ℝ, 0 < σ → massFormed t s σ (Real.sqrt 10) =
      Real.sqrt (massFormed t s σ 1 * massFormed t s σ 10) := by
    intro σ hσ
    have h := (C20_mass_history t s σ ht ht0 hσ hr).2 0 (Real.sqrt 10) (by
      rw [Fin.castSucc_zero, t0]; exact hq1.le) (by rw [Fin.succ_zero_eq_one, t1]; exact hq10.le)
    rw [Fin.castSucc_zero, Fin.succ_zero_eq_one, t0, t1] at h
    have l10 : Real.logb 10 10 = 1 := Real.logb_self_eq_one (by norm_num)
    have lq : Real.logb 10 (Real.sqrt 10) = 1 / 2 := by
      have : Real.logb 10 (Real.sqrt 10 * Real.sqrt 10) = 1 := by rw [hq2, l10]
      rw [Real.logb_mul hq.ne' hq.ne'] at this
      linarith
    rw [Real.logb_one, l10, lq] at h
    have p0 := massFormed_pos (t := t) (s := s) (sfr_min := σ) 1
    have p1 := massFormed_pos (t := t) (s := s) (sfr_min := σ) 10
    have pm := massFormed_pos (t := t) (s := s) (sfr_min := σ) (Real.sqrt 10)
    have : Real.logb 10 (massFormed t s σ (Real.sqrt 10) * massFormed t s σ (Real.sqrt 10)) =
        Real.logb 10 (massFormed t s σ 1 * massFormed t s σ 10) := by
      rw [Real.logb_mul pm.ne' pm.ne', Real.logb_mul p0.ne' p1.ne', h]; ring
    have h2 := Real.logb_injOn_pos (show (1:ℝ) < 10 by norm_num) (mul_pos pm pm) (mul_pos p0 p1) this
    rw [← h2, Real.sqrt_mul_self pm.le]
  have hb0 : birthTime (10 + Real.sqrt 10) 0 = 9 + Real.sqrt 10 := by
    unfold birthTime; rw [Real.rpow_zero, max_eq_right (by linarith)]; ring
  have hb1 : birthTime (10 + Real.sqrt 10) 1 = Real.sqrt 10 := by
    unfold birthTime; rw [Real.rpow_one, max_eq_right (by linarith)]; ring
  have hb3 : birthTime (10 + Real.sqrt 10) 3 = 0.001 := by
    unfold birthTime
    rw [show (10:ℝ) ^ (3:ℝ) = 1000 by rw [show (3:ℝ) = ((3:ℕ):ℝ) by norm_num, Real.rpow_natCast]; norm_num]
    exact max_eq_left (by linarith)
  have mbefore : ∀ σ : ℝ, massFormed t s σ 0.001 = massFormed t s σ 1 := by
    intro σ
    have := massFormed_before (s := s) (sfr_min := σ) ht ht0 (τ := 0.001) (by norm_num) (by rw [t0]; norm_num)
    rwa [t0] at this
  have mafter : ∀ σ : ℝ, massFormed t s σ (9 + Real.sqrt 10) = massFormed t s σ 10 := by
    intro σ
    have h1 : t (Fin.last 1) = 10 := t1
    have := massFormed_after (s := s) (sfr_min := σ) ht ht0 hr (τ := 9 + Real.sqrt 10) (by rw [h1]; linarith)
    rwa [h1] at this
  have w0 : ∀ σ : ℝ, calc_age_weights_from_sfh_table t s a (10 + Real.sqrt 10) σ 0 =
      (massFormed t s σ 10 - massFormed t s σ (Real.sqrt 10)) / (massFormed t s σ 10 - massFormed t s σ 1) := by
    intro σ
    rw [age_weights_eq, he, he, he, he]
    simp only [Fin.castSucc_zero, Fin.succ_zero_eq_one, Fin.val_zero, Fin.val_one, Nat.cast_zero, Nat.cast_one, Fin.val_last]
    rw [show ((0 + 3 : ℕ) : ℝ) = 3 by norm_num, hb0, hb1, hb3, mbefore, mafter]
  -- the ratio of the two table masses determines the weight; it depends on the floor
  refine ⟨t, s, a, 10 + Real.sqrt 10, 1, ht, ht0, one_pos, fun heq => ?_⟩
  have heq' : calc_age_weights_from_sfh_table t s a (10 + Real.sqrt 10) 1 =
      calc_age_weights_from_sfh_table t s a (10 + Real.sqrt 10) SFR_MIN := heq
  have h0 := congrFun heq' 0
  have hS : (0:ℝ) < SFR_MIN := by norm_num [SFR_MIN]
  rw [w0, w0, massM 1 one_pos, massM SFR_MIN hS] at h0
  have key : ∀ x y : ℝ, 0 < x → x < y → (y - Real.sqrt (x * y)) / (y - x) = Real.sqrt y / (Real.sqrt y + Real.sqrt x) := by
    intro x y hx hxy
    have hy := hx.trans hxy
    rw [Real.sqrt_mul hx.le]
    have hsx := Real.sqrt_pos.mpr hx
    have hsy := Real.sqrt_pos.mpr hy
    have ex := Real.mul_self_sqrt hx.le
    have ey := Real.mul_self_sqrt hy.le
    have hd : y - x ≠ 0 := by linarith
    rw [div_eq_div_iff hd (by positivity)]
    have e1 : y - x = (Real.sqrt y - Real.sqrt x) * (Real.sqrt y + Real.sqrt x) := by nlinarith
    have e2 : y - Real.sqrt x * Real.sqrt y = Real.sqrt y * (Real.sqrt y - Real.sqrt x) := by nlinarith
    rw [e1, e2]; ring
  have pa := massFormed_pos (t := t) (s := s) (sfr_min := 1) 1
  have pb := massFormed_pos (t := t) (s := s) (sfr_min := SFR_MIN) 1
  have ma := mass1 1 one_pos
  have mb := mass1 SFR_MIN hS
  have va := mass0 1 one_pos
  have vb := mass0 SFR_MIN hS
  rw [key _ _ pa (by rw [ma]; norm_num), key _ _ pb (by rw [mb]; linarith [mul_pos (show (0:ℝ) < 1e9 by norm_num) (mul_pos (show (0:ℝ) < 9 by norm_num) hS)])] at h0
  have qa := Real.sqrt_pos.mpr pa
  have qb := Real.sqrt_pos.mpr pb
  have ra := Real.sqrt_pos.mpr (massFormed_pos (t := t) (s := s) (sfr_min := 1) 10)
  have rb := Real.sqrt_pos.mpr (massFormed_pos (t := t) (s := s) (sfr_min := SFR_MIN) 10)
  rw [div_eq_div_iff (by positivity) (by positivity)] at h0
  have h1 : Real.sqrt (massFormed t s 1 10) * Real.sqrt (massFormed t s SFR_MIN 1) =
      Real.sqrt (massFormed t s SFR_MIN 10) * Real.sqrt (massFormed t s 1 1) := by nlinarith
  rw [← Real.sqrt_mul (massFormed_pos _).le, ← Real.sqrt_mul (massFormed_pos _).le] at h1
  have h2 := (Real.sqrt_inj (mul_pos (massFormed_pos _) (massFormed_pos _)).le (mul_pos (massFormed_pos _) (massFormed_pos _)).le).mp h1
  rw [ma, mb, va, vb] at h2
  norm_num [trapezoidArea, SFR_MIN] at h2

/-! ## The theorems applied to the concrete galaxy of `Props/AgeWeights.lean`, with metallicity grid -4, -3.5, ..., -2 and
metallicity history -3, -2, -1.5 -/

/-- metallicity grid -/
noncomputable def caseZ : Fin 5 → ℝ := fun i => -4 + i * 0.5
/-- metallicity history -/
noncomputable def caseZT : Fin 3 → ℝ := ![-3, -2, -1.5]
/-- SSP spectra: 5 metallicities, 3 ages, 2 wavelengths -/
noncomputable def caseF : Fin 5 → Fin 3 → Fin 2 → ℝ := fun i j l => (1 + i + 2 * j) / (1 + l)

theorem caseZ_mild : MildlySpaced (n := 2) caseZ := mildlySpaced_uniform (n := 2) (-4) 0.5 (by norm_num)
theorem caseZ_lo : -10 < caseZ 0 := by norm_num [caseZ]
theorem caseZ_hi : caseZ (Fin.last 4) < 10 := by norm_num [caseZ]
theorem caseZ_edges : Monotone (get_bin_edges (n := 2) caseZ (-10) 10) :=
  (C05_edges_bracket_partial (n := 2) caseZ caseZ_mild (-10) 10 caseZ_lo caseZ_hi).1.monotone

section
attribute [local instance] Dtype.float64

/-- C21 applied -/
example := C21_lgmet_weights_prob_partial (k := 2) (-2.6) 0.2 (by norm_num) caseZ caseZ_edges
example := C21_lgmet_weights_prob_mild_partial (k := 2) (-2.6) 0.2 (by norm_num) caseZ caseZ_mild caseZ_lo caseZ_hi
example : ∑ i, calc_lgmet_weights_from_lognormal_mdf (k := 2) (-2.6) 0.2 caseZ i = 1 :=
  C21_lgmet_weights_sum (k := 2) (-2.6) 0.2 (by norm_num) caseZ (by norm_num) (by norm_num)
/-- C22 applied -/
example := C22_lgmet_table_weights_partial (n := 1) (k := 2) (m := 2) caseT caseZT 0.2 (by norm_num) caseZ caseA 13 caseZ_edges
example : -3 ≤ calc_lgmet_at_ssp_lgage_table (n := 1) caseT caseZT caseA 13 1 ∧
    calc_lgmet_at_ssp_lgage_table (n := 1) caseT caseZT caseA 13 1 ≤ -1.5 :=
  C22_lgmet_at_age_range caseT caseZT caseA 13 (-3) (-1.5) caseT_mono caseT_zero
    (Case.all3 (p := fun x => -3 ≤ x) (by vec) (by vec) (by vec)) (Case.all3 (p := fun x => x ≤ -1.5) (by vec) (by vec) (by vec)) 1
/-- the age and metallicity weights of the galaxy are probability vectors -/
theorem case_age_prob : IsProbVector (calc_age_weights_from_sfh_table (n := 1) (m := 0) caseT caseS caseA 13) :=
  C17_age_weights_prob_mild_partial caseT caseS caseA 13 caseT_mono caseT_zero caseT_resolved caseA_mild case_young
    case_old
/-- C23 applied -/
example := C23_joint_weights_lognormal (n := 1) (m := 0) (k := 2) caseT caseS (-2.6) 0.2 caseZ caseA 13 case_age_prob
  (C21_lgmet_weights_prob_partial (k := 2) (-2.6) 0.2 (by norm_num) caseZ caseZ_edges)
theorem case_joint_prob :
    IsProbMatrix (calc_ssp_weights_sfh_table_lognormal_mdf (n := 1) (m := 0) (k := 2) caseT caseS (-2.6) 0.2 caseZ caseA 13).weights :=
  C23_joint_weights_lognormal_inputs caseT caseS (-2.6) 0.2 caseZ caseA 13 caseT_mono caseT_zero caseT_resolved
    caseA_mild case_young case_old (by norm_num) caseZ_mild caseZ_lo caseZ_hi
example := C23_factorisation_any_grid (n := 1) (m := 0) (k := 2) caseT caseS (-2.6) 0.2 caseZ caseA 13 caseT_mono caseT_zero
  caseT_resolved caseA_mono case_young case_old (by norm_num) (by norm_num) (by norm_num)
/-- C24 applied -/
example := C24_joint_weights_met_table (n := 1) (m := 0) (k := 2) caseT caseS caseZT 0.2 (by norm_num) caseZ caseA 13
  caseZ_edges case_age_prob
example := C24_factorisation_any_grid (n := 1) (m := 0) (k := 2) caseT caseS caseZT 0.2 caseZ caseA 13 caseT_mono caseT_zero
  caseT_resolved caseA_mono case_young case_old (by norm_num)
  (Case.all3 (p := fun x => -10 ≤ x) (by vec) (by vec) (by vec)) (Case.all3 (p := fun x => x ≤ 10) (by vec) (by vec) (by vec))
/-- C25 applied -/
example := (C25_sed_between (n := 1) (m := 0) (k := 2) caseT caseS caseZT (-2.6) 0.2 caseZ caseA caseF 13 1e-14 0 1 9
  (by intro i j; fin_cases i <;> fin_cases j <;> norm_num [caseF])
  (by intro i j; fin_cases i <;> fin_cases j <;> norm_num [caseF])).1 case_joint_prob
example := (C25_sed_common_spectrum (n := 1) (m := 0) (k := 2) caseT caseS caseZT (-2.6) 0.2 caseZ caseA ![1, 2] 13 1e-14).1
  case_joint_prob
/-- C26 applied -/
example := C26_mass_normalisation (n := 1) caseT caseS 1e-14 caseT_mono caseT_zero (by norm_num) caseT_resolved
end

end Dsps.Props
