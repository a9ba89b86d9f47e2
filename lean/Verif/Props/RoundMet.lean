import Verif.Lemmas.RoundMet
import Verif.Props.RoundAge

/-! C113: floating-point accuracy of the metallicity weights. -/
namespace Dsps.Props
open Jnp Fl Dsps.Lemmas Dsps.Constants Spec

variable {A : Arith} {v : ℝ} {n m k : ℕ}

lemma hist_sum_one {x σ : ℝ} (hσ : 0 < σ) {e : Fin (k + 2) → ℝ} (hlo : e 0 ≤ x - 3 * σ) (hhi : x + 3 * σ ≤ e (Fin.last (k + 1))) :
    MetallicityWeights.get_lgmet_weights_singlegal x σ e = Utils.triweighted_histogram x σ e := by
  have h1 := C03_histogram_total_one x σ hσ e hlo hhi
  have h2 : Jnp.sum (Utils.triweighted_histogram x σ e) = 1 := h1
  unfold MetallicityWeights.get_lgmet_weights_singlegal Utils.fill_empty_weights_singlepoint
  simp only [h2]
  have hne : ¬ ∀ i, Utils.triweighted_histogram x σ e i / (if (1:ℝ) = 0 then 1.0 else 1) = 0 := by
    intro hall
    have : ∑ i, Utils.triweighted_histogram x σ e i = 0 := Finset.sum_eq_zero fun i _ => by
      have := hall i
      rw [if_neg one_ne_zero, div_one] at this; exact this
    rw [h1] at this; exact one_ne_zero this
  rw [if_neg (fun h => hne h.1), if_neg (fun h => hne h.1)]
  funext i
  rw [if_neg one_ne_zero, div_one]

/-- weights of a single galaxy, for machine edges and a machine metallicity -/
lemma singlegal_err {x x' σ : ℝ} (hσ : 0 < σ) {e e' : Fin (k + 2) → ℝ} (he : Monotone e) (hlo : e 0 ≤ x - 3 * σ)
    (hhi : x + 3 * σ ≤ e (Fin.last (k + 1))) {η : ℝ} (hη : ∀ i, |(x' - e' i) - (x - e i)| ≤ η)
    (hu : (1 / (1 - A.u)) ^ 2 - 1 ≤ 1 / 4) {d : ℕ} (hd : sumErr A d (diffErr A (k + 1) (kernErr A η σ) 1) 1 < 1) {out : Fin (k + 1) → ℝ}
    (h : out ∈ Rounded.get_lgmet_weights_singlegal A d x' σ e') :
    ∑ i, |out i - MetallicityWeights.get_lgmet_weights_singlegal x σ e i| ≤ normErr A d (diffErr A (k + 1) (kernErr A η σ) 1) 1 := by
  obtain ⟨hist, ⟨a, ha, b, hb, hh⟩, s, hs, w, hw, rfl⟩ := h
  rw [hist_sum_one hσ hlo hhi]
  have hsum := C03_histogram_total_one x σ hσ e hlo hhi
  have h0 := (C03_histogram_partition x σ hσ e).2.2 he
  set H := Utils.triweighted_histogram x σ e with hH
  have hHd : ∀ i, H i = Utils.tw_cuml_kern x (e i.castSucc) σ - Utils.tw_cuml_kern x (e i.succ) σ := fun i => rfl
  have hE : ∑ i, |hist i - H i| ≤ diffErr A (k + 1) (kernErr A η σ) 1 := by
    have := diff_l1 (A := A) (a0 := fun i : Fin (k + 1) => Utils.tw_cuml_kern x (e i.castSucc) σ)
      (b0 := fun i => Utils.tw_cuml_kern x (e i.succ) σ) (a := a) (b := b) (x := hist)
      (fun i => by have := h0 i; rw [hHd] at this; linarith) (fun i => kern_err hσ (hη i.castSucc) hu (ha i))
      (fun i => kern_err hσ (hη i.succ) hu (hb i)) (fun i => A.rel _ _ (hh i))
    have e1 : ∑ i : Fin (k + 1), (Utils.tw_cuml_kern x (e i.castSucc) σ - Utils.tw_cuml_kern x (e i.succ) σ) = 1 := hsum
    rw [e1] at this
    exact this
  have hsΔ := sum_err h0 hE hs
  rw [hsum] at hsΔ
  have hs0 : 0 < s := by have := (abs_le.1 hsΔ).1; linarith
  rw [if_neg hs0.ne'] at hw
  have hne : ¬ ∀ i, w i = 0 := by
    intro hall
    have hz : ∀ i, hist i = 0 := fun i => by
      have h1 := A.rel _ _ (hw i)
      rw [hall i, zero_sub, abs_neg] at h1
      have h2 := A.u_lt_one
      have h3 : |hist i / s| = 0 := by
        by_contra hc
        have : 0 < |hist i / s| := lt_of_le_of_ne (abs_nonneg _) (Ne.symm hc)
        nlinarith
      have h4 := abs_eq_zero.1 h3
      exact (div_eq_zero_iff.1 h4).resolve_right hs0.ne'
    have near : Near A (0 + d) s (∑ i, hist i) (∑ i, |hist i|) := sum_near (fun i => Near.refl le_rfl) hs
    have h5 := near.2
    simp only [hz, abs_zero, Finset.sum_const_zero, mul_zero, sub_zero] at h5
    have := abs_nonpos_iff.1 h5
    exact hs0.ne' this
  have hfill : Utils.fill_empty_weights_singlepoint x' e' w = w := by
    unfold Utils.fill_empty_weights_singlepoint
    simp only
    rw [if_neg (fun h => hne h.1), if_neg (fun h => hne h.1)]
  rw [hfill]
  have := normalize_l1 h0 hE hs hw (by rw [hsum]; exact hd)
  rw [hsum] at this
  simpa using this

/-- error of the bin edges of a metallicity grid of size at most `B` -/
noncomputable def metEdgeErr (A : Arith) (B : ℝ) : ℝ := ((1 / (1 - A.u)) ^ 8 - 1) * (5 / 2 * B)

/-- C113: metallicity weights of a lognormal distribution, from the inputs on.  For a grid of `k+3` metallicities of size at most `B` with
ordered bin edges, and a galaxy whose distribution lies in (-10, 10), the computed weights are within `normErr …` of the exact ones in the sum
norm, whatever the order of the additions. -/
theorem C113_lgmet_weights {x σ B : ℝ} (hσ : 0 < σ) {z : Fin (k + 3) → ℝ} (hB : ∀ i, |z i| ≤ B) (hB4 : 4 ≤ B)
    (he : Monotone (Utils.get_bin_edges z (-10) 10)) (hlo : -10 ≤ x - 3 * σ) (hhi : x + 3 * σ ≤ 10)
    (hu : (1 / (1 - A.u)) ^ 2 - 1 ≤ 1 / 4) {d : ℕ}
    (hd : sumErr A d (diffErr A (k + 3) (kernErr A (metEdgeErr A B) σ) 1) 1 < 1) {out : Fin (k + 3) → ℝ}
    (h : out ∈ Rounded.calc_lgmet_weights_from_lognormal_mdf A d x σ z) :
    ∑ i, |out i - MetallicityWeights.calc_lgmet_weights_from_lognormal_mdf x σ z i| ≤
      normErr A d (diffErr A (k + 3) (kernErr A (metEdgeErr A B) σ) 1) 1 := by
  have e1 : LGMET_LO = -10 := by norm_num [LGMET_LO]
  have e2 : LGMET_HI = 10 := by norm_num [LGMET_HI]
  obtain ⟨e', hed, h⟩ := h
  rw [e1, e2] at hed
  have el : Utils.get_bin_edges z (-10) 10 (Fin.last (k + 2 + 1)) = 10 := edges_last z (-10) 10
  simp only [MetallicityWeights.calc_lgmet_weights_from_lognormal_mdf, e1, e2]
  refine singlegal_err hσ he (by rw [edges_zero]; exact hlo) (by rw [el]; exact hhi) (fun i => ?_) hu hd h
  have hn := (met_edges_near hB (by rw [abs_neg, abs_of_pos (by norm_num : (0:ℝ) < 10)]; linarith)
    (by rw [abs_of_pos (by norm_num : (0:ℝ) < 10)]; linarith) hed i).2
  have e3 : x - e' i - (x - Utils.get_bin_edges z (-10) 10 i) = -(e' i - Utils.get_bin_edges z (-10) 10 i) := by ring
  rw [e3, abs_neg]; exact hn

/-! ### tabulated metallicity histories -/

/-- error of the metallicity assigned to an age: `Lz` slope (dex per dex of time) and `Z` size of the metallicity history -/
noncomputable def lgmetErr (A : Arith) (v Lz Z t_obs : ℝ) : ℝ :=
  ((1 / (1 - A.u)) ^ 6 - 1) * (2 * Z) + 10 * Lz * v + Lz * (2000 * birthErr A v 0 t_obs)

lemma log10_sub_le {a b : ℝ} (ha : 0.0005 ≤ a) (hb : 0.0005 ≤ b) : |log10 a - log10 b| ≤ 2000 * |a - b| := by
  have hl : 1 ≤ Real.log 10 := by
    rw [Real.le_log_iff_exp_le (by norm_num)]
    have := Real.exp_one_lt_three; linarith
  have key : ∀ a b : ℝ, 0.0005 ≤ a → a ≤ b → log10 b - log10 a ≤ 2000 * (b - a) := by
    intro a b ha hab
    have ha0 : 0 < a := lt_of_lt_of_le (by norm_num) ha
    have h1 := Real.log_le_sub_one_of_pos (div_pos (ha0.trans_le hab) ha0)
    have h2 : 0 ≤ Real.log (b / a) := Real.log_nonneg ((one_le_div ha0).2 hab)
    have e : log10 b - log10 a = Real.log (b / a) / Real.log 10 := by
      unfold log10 Real.logb
      rw [Real.log_div (ha0.trans_le hab).ne' ha0.ne']; ring
    rw [e]
    refine (div_le_self h2 hl).trans (h1.trans ?_)
    have e2 : b / a - 1 = (b - a) / a := by field_simp
    rw [e2, div_le_iff₀ ha0]
    have h3 : 0 ≤ b - a := sub_nonneg.2 hab
    norm_num at ha
    nlinarith
  rcases le_total a b with h | h
  · rw [abs_sub_comm, abs_sub_comm a b, abs_of_nonneg (sub_nonneg.2 h),
      abs_of_nonneg (sub_nonneg.2 (log10_le (lt_of_lt_of_le (by norm_num) ha) h))]
    exact key a b ha h
  · rw [abs_of_nonneg (sub_nonneg.2 h), abs_of_nonneg (sub_nonneg.2 (log10_le (lt_of_lt_of_le (by norm_num) hb) h))]
    exact key b a hb h

section
variable [Dtype] {t s : Fin (n + 2) → ℝ} {sfr_min L S : ℝ}

/-- C113: the metallicity at the birth time of each age, from a tabulated history. -/
theorem C113_lgmet_at_ages (h : Conditioned A v t s sfr_min L S) {zt : Fin (n + 2) → ℝ} {Lz Z t_obs : ℝ} (hL : 0 ≤ Lz)
    (hslope : ∀ i : Fin (n + 1), |zt i.succ - zt i.castSucc| ≤ Lz * (Real.logb 10 (t i.succ) - Real.logb 10 (t i.castSucc)))
    (hZ : ∀ i, |zt i| ≤ Z) (h0 : 0.001 ≤ t_obs) (h1 : t_obs ≤ 1000) (hv : v ≤ 1 / 2) {a out : Fin m → ℝ}
    (ho : out ∈ Rounded.calc_lgmet_at_ssp_lgage_table A v t zt a t_obs) (i : Fin m) :
    |out i - MetallicityWeights.calc_lgmet_at_ssp_lgage_table t zt a t_obs i| ≤ lgmetErr A v Lz Z t_obs := by
  obtain ⟨lgt, hl, x, hx, ho⟩ := ho
  have hp : 0 < t_obs := lt_of_lt_of_le (by norm_num) h0
  have hv0 := h.v_nonneg
  have hρ : expErr v 0 = v := by unfold expErr; rw [exp10_zero]; ring
  obtain ⟨c, c0, c1, c2, c3⟩ := birth_err (δ := 0) hv0 hp (by rw [sub_self, abs_zero]) (by rw [hρ]; exact hv) (hx i)
  have hu := h.u_half
  have hu0 := A.u_nonneg
  have c0' : 0.0005 ≤ c := le_trans (by norm_num; linarith) c0
  have c1' : c ≤ 10000 := c1.trans (max_le (by norm_num; linarith) (by nlinarith))
  have hc4 := log10_small (le_trans (by norm_num) c0') c1'
  have hη : ∀ i, |lgt i - log10 (t i)| ≤ 3 * v := fun i => by
    refine le_trans (hl i) ?_
    rw [mul_comm]
    exact mul_le_mul_of_nonneg_right (max_le (by norm_num) (h.log_time i)) hv0
  have hgap : ∀ i : Fin (n + 1), Dtype.interpEps < (lgt i.succ - lgt i.castSucc) * (1 - A.u) := fun i => by
    refine (h.gaps i).trans_le (mul_le_mul_of_nonneg_right ?_ (q_pos A).le)
    have h1 := (abs_le.1 (hη i.succ)).1
    have h2 := (abs_le.1 (hη i.castSucc)).2
    have e1 : log10 (t i.succ) = Real.logb 10 (t i.succ) := rfl
    have e2 : log10 (t i.castSucc) = Real.logb 10 (t i.castSucc) := rfl
    linarith
  have hr' : Resolved lgt := fun i => by
    have h1 := hgap i
    have h3 := Dtype.interpEps_nonneg
    have h4 := q_pos A
    have h5 := q_le A
    have h6 : 0 < lgt i.succ - lgt i.castSucc := by
      by_contra hc; push Not at hc; nlinarith
    nlinarith
  have n1 := (interp_near hr'.strictMono.monotone hgap hZ (ho i)).2
  have n2 := interp_perturb h.resolved hr' hL hslope hη (φ := 0) (fp' := zt) (fun i => by rw [sub_self, abs_zero]) (x i)
  have n3 := interp_lipschitz h.resolved hL hslope (x i) (log10 (birthTime t_obs (a i)))
  have n4 : |x i - log10 c| ≤ 4 * v := by
    refine c3.trans ?_
    rw [mul_comm]
    exact mul_le_mul_of_nonneg_right (max_le (by norm_num) hc4) hv0
  have hb : 0.0005 ≤ birthTime t_obs (a i) := le_trans (by norm_num) (le_max_left (0.001:ℝ) _)
  have n5 := log10_sub_le c0' hb
  have n6 := abs_sub_le (x i) (log10 c) (log10 (birthTime t_obs (a i)))
  have n7 : |x i - log10 (birthTime t_obs (a i))| ≤ 4 * v + 2000 * birthErr A v 0 t_obs := by linarith
  have n8 := mul_le_mul_of_nonneg_left n7 hL
  have ev : MetallicityWeights.calc_lgmet_at_ssp_lgage_table t zt a t_obs i =
      Jnp.interp (log10 (birthTime t_obs (a i))) (fun i => log10 (t i)) zt := by
    simp only [MetallicityWeights.calc_lgmet_at_ssp_lgage_table, get_lgt_birth_eq]
  rw [ev]
  have t1 := abs_sub_le (out i) (Jnp.interp (x i) lgt zt) (Jnp.interp (log10 (birthTime t_obs (a i))) (fun i => log10 (t i)) zt)
  have t2 := abs_sub_le (Jnp.interp (x i) lgt zt) (Jnp.interp (x i) (fun i => log10 (t i)) zt)
    (Jnp.interp (log10 (birthTime t_obs (a i))) (fun i => log10 (t i)) zt)
  unfold lgmetErr
  linarith

/-- error, in the sum norm, of the weights of one age (times the number of ages) -/
noncomputable def metTableErr (A : Arith) (v : ℝ) (d N : ℕ) (B σ Lz Z t_obs : ℝ) : ℝ :=
  (1 + A.u) * normErr A d (diffErr A N (kernErr A (metEdgeErr A B + lgmetErr A v Lz Z t_obs) σ) 1) 1 + A.u

/-- C113: metallicity weights from a tabulated metallicity history: every age column of the computed matrix is within `metTableErr / n_age`
of the exact one in the sum norm. -/
theorem C113_lgmet_table_weights (h : Conditioned A v t s sfr_min L S) {zt : Fin (n + 2) → ℝ} {Lz t_obs : ℝ} (hL : 0 ≤ Lz)
    (hslope : ∀ i : Fin (n + 1), |zt i.succ - zt i.castSucc| ≤ Lz * (Real.logb 10 (t i.succ) - Real.logb 10 (t i.castSucc)))
    (h0 : 0.001 ≤ t_obs) (h1 : t_obs ≤ 1000) (hv : v ≤ 1 / 2) {σ B Z : ℝ}
    (hσ : 0 < σ) (hZ : ∀ i, |zt i| ≤ Z) (hwin : Z + 3 * σ ≤ 10) {z : Fin (k + 3) → ℝ} (hB : ∀ i, |z i| ≤ B) (hB4 : 4 ≤ B)
    (he : Monotone (Utils.get_bin_edges z (-10) 10)) (hu : (1 / (1 - A.u)) ^ 2 - 1 ≤ 1 / 4) {d : ℕ}
    (hd : sumErr A d (diffErr A (k + 3) (kernErr A (metEdgeErr A B + lgmetErr A v Lz Z t_obs) σ) 1) 1 < 1) {a : Fin m → ℝ}
    {out : Fin (k + 3) → Fin m → ℝ} (ho : out ∈ Rounded.calc_lgmet_weights_from_lgmet_table A v d t zt σ z a t_obs) (j : Fin m) :
    ∑ i, |out i j - MetallicityWeights.calc_lgmet_weights_from_lgmet_table t zt σ z a t_obs i j| ≤
      metTableErr A v d (k + 3) B σ Lz Z t_obs / m := by
  have e1 : LGMET_LO = -10 := by norm_num [LGMET_LO]
  have e2 : LGMET_HI = 10 := by norm_num [LGMET_HI]
  obtain ⟨z', hz', e', hed, W, hW, ho⟩ := ho
  rw [e1, e2] at hed
  have hm : (0:ℝ) < m := by exact_mod_cast j.pos
  have hu0 := A.u_nonneg
  have el : Utils.get_bin_edges z (-10) 10 (Fin.last (k + 2 + 1)) = 10 := edges_last z (-10) 10
  set x := MetallicityWeights.calc_lgmet_at_ssp_lgage_table t zt a t_obs j with hx
  have hrange := C22_lgmet_at_age_range t zt a t_obs (-Z) Z h.increasing h.start' (fun i => (abs_le.1 (hZ i)).1) (fun i => (abs_le.1 (hZ i)).2) j
  have herr := C113_lgmet_at_ages h hL hslope hZ h0 h1 hv hz' j
  have key := singlegal_err (x := x) hσ he (by rw [edges_zero]; linarith) (by rw [el]; linarith) (η := metEdgeErr A B + lgmetErr A v Lz Z t_obs)
    (fun i => by
      have hn := (met_edges_near hB (by rw [abs_neg, abs_of_pos (by norm_num : (0:ℝ) < 10)]; linarith)
        (by rw [abs_of_pos (by norm_num : (0:ℝ) < 10)]; linarith) hed i).2
      have e3 : z' j - e' i - (x - Utils.get_bin_edges z (-10) 10 i) = (z' j - x) - (e' i - Utils.get_bin_edges z (-10) 10 i) := by ring
      rw [e3]
      refine (abs_sub _ _).trans ?_
      unfold metEdgeErr
      linarith) hu hd (hW j)
  set w := MetallicityWeights.get_lgmet_weights_singlegal x σ (Utils.get_bin_edges z (-10) 10) with hw
  have ev : ∀ i, MetallicityWeights.calc_lgmet_weights_from_lgmet_table t zt σ z a t_obs i j = w i / m := fun i => by
    simp only [MetallicityWeights.calc_lgmet_weights_from_lgmet_table, MetallicityWeights.get_lgmet_weights_singlegal_zh, vmap, e1, e2]
    rfl
  have hwsum : ∑ i, |w i| = 1 := by
    rw [hw, hist_sum_one hσ (by rw [edges_zero]; linarith) (by rw [el]; linarith)]
    have h0' := (C03_histogram_partition x σ hσ (Utils.get_bin_edges z (-10) 10)).2.2 he
    rw [Finset.sum_congr rfl fun i _ => abs_of_nonneg (h0' i)]
    exact C03_histogram_total_one x σ hσ _ (by rw [edges_zero]; linarith) (by rw [el]; linarith)
  have term : ∀ i, |out i j - w i / m| ≤ ((1 + A.u) * |W j i - w i| + A.u * |w i|) / m := fun i => by
    have r1 := A.rel _ _ (ho i j)
    have r2 := abs_sub_le (out i j) (W j i / m) (w i / m)
    have r3 : |W j i / m - w i / m| = |W j i - w i| / m := by rw [← sub_div, abs_div, abs_of_pos hm]
    have r4 : |W j i / m| ≤ (|W j i - w i| + |w i|) / m := by
      rw [abs_div, abs_of_pos hm]
      refine div_le_div_of_nonneg_right ?_ hm.le
      have := abs_sub_abs_le_abs_sub (W j i) (w i); linarith
    have r5 := mul_le_mul_of_nonneg_left r4 hu0
    rw [r3] at r2
    have r6 : ((1 + A.u) * |W j i - w i| + A.u * |w i|) / m = A.u * ((|W j i - w i| + |w i|) / m) + |W j i - w i| / m := by ring
    rw [r6]; linarith
  calc ∑ i, |out i j - MetallicityWeights.calc_lgmet_weights_from_lgmet_table t zt σ z a t_obs i j|
      ≤ ∑ i, ((1 + A.u) * |W j i - w i| + A.u * |w i|) / m := Finset.sum_le_sum fun i _ => by rw [ev]; exact term i
    _ = ((1 + A.u) * ∑ i, |W j i - w i| + A.u) / m := by
      rw [← Finset.sum_div, Finset.sum_add_distrib, ← Finset.mul_sum, ← Finset.mul_sum, hwsum, mul_one]
    _ ≤ metTableErr A v d (k + 3) B σ Lz Z t_obs / m := by
      refine div_le_div_of_nonneg_right ?_ hm.le
      unfold metTableErr
      have := mul_le_mul_of_nonneg_left key (show 0 ≤ 1 + A.u by linarith)
      linarith

end

/-! ### double precision, numbers -/

lemma normErr_le {d : ℕ} {E Δ γ : ℝ} (hΔ : 0 < Δ) (hE0 : 0 ≤ E) (hE : E ≤ 1e-4 * Δ) (hγ : (1 / (1 - A.u)) ^ d - 1 ≤ γ) (hγ1 : γ ≤ 1e-4)
    (hu : A.u ≤ 1e-4) : sumErr A d E Δ < Δ ∧ normErr A d E Δ ≤ 2.01 * (E / Δ) + 1.01 * γ + A.u := by
  have hu0 := A.u_nonneg
  have hγ0 := (G_pow_nonneg A d).trans hγ
  have hs : sumErr A d E Δ ≤ 1.0001 * E + γ * Δ := by
    unfold sumErr
    have h1 := mul_le_mul_of_nonneg_right hγ (show 0 ≤ Δ + E by linarith)
    have h2 := mul_le_mul_of_nonneg_right hγ1 hE0
    norm_num at h1 h2 ⊢; linarith
  have hγΔ := mul_le_mul_of_nonneg_right hγ1 hΔ.le
  have hden : 0.9997 * Δ ≤ Δ - sumErr A d E Δ := by norm_num at hE hγΔ hs ⊢; linarith
  refine ⟨by norm_num at hden; linarith, ?_⟩
  unfold normErr
  have hs0 := sumErr_nonneg (A := A) (d := d) hE0 hΔ.le
  generalize sumErr A d E Δ = T at *
  have h9 : (0:ℝ) < 0.9997 * Δ := by norm_num; exact hΔ
  have hnum : E + T ≤ 2.0001 * E + γ * Δ := by norm_num at hs ⊢; linarith
  have hnum0 : 0 ≤ 2.0001 * E + γ * Δ := by positivity
  have hq : (E + T) / (Δ - T) ≤ (2.0001 * E + γ * Δ) / (0.9997 * Δ) := div_le_div₀ hnum0 hnum h9 hden
  have e : (2.0001 * E + γ * Δ) / (0.9997 * Δ) = 20001 / 9997 * (E / Δ) + 10000 / 9997 * γ := by
    field_simp; norm_num; ring
  rw [e] at hq
  have hEΔ : 0 ≤ E / Δ := by positivity
  have h2 := mul_le_mul (show 1 + A.u ≤ 1.0001 by norm_num at hu ⊢; linarith) hq (by have : 0 ≤ Δ - T := (by linarith); positivity) (by norm_num)
  norm_num at h2 ⊢; linarith

lemma G_float64 (hu : A.u ≤ 2 ^ (-53:ℤ)) {d N : ℕ} (hd : d ≤ N) (hN : N ≤ 1000000) : (1 / (1 - A.u)) ^ d - 1 ≤ 2.3e-16 * N := by
  have hu' : A.u ≤ 1.12e-16 := hu.trans (by norm_num)
  have hu0 := A.u_nonneg
  have hd' : (d:ℝ) ≤ N := by exact_mod_cast hd
  have hN' : (N:ℝ) ≤ 1000000 := by exact_mod_cast hN
  have hN0 : (0:ℝ) ≤ N := Nat.cast_nonneg N
  have h1 := mul_le_mul hd' hu' hu0 hN0
  have := G_sub_one_le (A := A) (k := d) (by norm_num at h1 ⊢; linarith)
  norm_num at this h1 ⊢; linarith

lemma kernErr_float64 (hu : A.u ≤ 2 ^ (-53:ℤ)) {η σ : ℝ} : kernErr A η σ ≤ 1.1e-14 + 0.37 * (|η| / |σ|) := by
  have hu' : A.u ≤ 1.12e-16 := hu.trans (by norm_num)
  have h12 := G_float64 hu (le_refl 12) (by norm_num)
  have h2 := G_float64 hu (le_refl 2) (by norm_num)
  have h0 : η / σ ≤ |η| / |σ| := by rw [← abs_div]; exact le_abs_self _
  have h1 : 0 ≤ |η| / |σ| := by positivity
  unfold kernErr
  push_cast at h12 h2
  generalize (1 / (1 - A.u)) ^ 12 = a at *
  generalize (1 / (1 - A.u)) ^ 2 = b at *
  norm_num at *; linarith

lemma kernErr_nonneg {η σ : ℝ} (hη : 0 ≤ η) (hσ : 0 ≤ σ) : 0 ≤ kernErr A η σ := by
  unfold kernErr
  have := G_pow_nonneg A 12
  have := G_pow_nonneg A 2
  positivity

/-- from an error `η` of the differences of metallicities to the error of the weights -/
lemma metErr_float64 (hu : A.u ≤ 2 ^ (-53:ℤ)) {d N : ℕ} (hd : d ≤ 1000) (hN : N ≤ 100) {η σ κ : ℝ} (hη : 0 ≤ η) (hσ : 0 < σ)
    (hκ : η / σ ≤ κ) (hκ1 : κ ≤ 1e-7) :
    (1 / (1 - A.u)) ^ 2 - 1 ≤ 1 / 4 ∧ sumErr A d (diffErr A N (kernErr A η σ) 1) 1 < 1 ∧
      normErr A d (diffErr A N (kernErr A η σ) 1) 1 ≤ 1.5 * N * κ + 6e-12 := by
  have hu' : A.u ≤ 1.12e-16 := hu.trans (by norm_num)
  have hu0 := A.u_nonneg
  have hN' : (N:ℝ) ≤ 100 := by exact_mod_cast hN
  have hN0 : (0:ℝ) ≤ N := Nat.cast_nonneg N
  have h2 := G_float64 hu (le_refl 2) (by norm_num)
  have hd2 := G_float64 hu hd (by norm_num)
  push_cast at h2 hd2
  have hk := kernErr_float64 (η := η) (σ := σ) hu
  rw [abs_of_nonneg hη, abs_of_pos hσ] at hk
  have hk0 := kernErr_nonneg (A := A) hη hσ.le
  have hk' : kernErr A η σ ≤ 1.1e-14 + 0.37 * κ := hk.trans (by norm_num at hκ ⊢; linarith)
  have hκ0 : 0 ≤ κ := (div_nonneg hη hσ.le).trans hκ
  have hNκ : (N:ℝ) * κ ≤ 1e-5 := (mul_le_mul hN' hκ1 hκ0 (by norm_num)).trans (by norm_num)
  have hE0 : 0 ≤ diffErr A N (kernErr A η σ) 1 := by unfold diffErr; positivity
  have hE : diffErr A N (kernErr A η σ) 1 ≤ 0.741 * (N * κ) + 2.3e-12 := by
    unfold diffErr
    have a1 := mul_le_mul (show 1 + A.u ≤ 1.0001 by norm_num at hu' ⊢; linarith) hk' hk0 (by norm_num)
    have a2 := mul_le_mul_of_nonneg_left a1 (show (0:ℝ) ≤ 2 * N by positivity)
    have a3 : 2 * (N:ℝ) * (1.0001 * (1.1e-14 + 0.37 * κ)) = 2.20022e-14 * N + 0.740074 * (N * κ) := by norm_num; ring
    have a4 : 0 ≤ (N:ℝ) * κ := by positivity
    rw [a3] at a2
    norm_num at a2 hu' ⊢; linarith
  obtain ⟨n1, n2⟩ := normErr_le (A := A) (d := d) one_pos hE0 (by norm_num at hE hNκ ⊢; linarith) hd2 (by norm_num)
    (by norm_num at hu' ⊢; linarith)
  refine ⟨by norm_num at h2 ⊢; linarith, n1, n2.trans ?_⟩
  rw [div_one]
  have a4 : 0 ≤ (N:ℝ) * κ := by positivity
  rw [show 1.5 * (N:ℝ) * κ = 1.5 * (N * κ) by ring]
  norm_num at hE hu' ⊢; linarith

/-- C113: double precision: for up to 100 SSP metallicities between -10 and 10 dex and a scatter of at least 0.01 dex, the metallicity
weights are accurate to 8e-10 in the sum norm. -/
theorem C113_lgmet_weights_float64 (hu : A.u ≤ 2 ^ (-53:ℤ)) {x σ : ℝ} (hσ : 0.01 ≤ σ) {z : Fin (k + 3) → ℝ} (hB : ∀ i, |z i| ≤ 10)
    (hk : k + 3 ≤ 100) (he : Monotone (Utils.get_bin_edges z (-10) 10)) (hlo : -10 ≤ x - 3 * σ) (hhi : x + 3 * σ ≤ 10) {d : ℕ}
    (hd : d ≤ 1000) {out : Fin (k + 3) → ℝ} (h : out ∈ Rounded.calc_lgmet_weights_from_lognormal_mdf A d x σ z) :
    ∑ i, |out i - MetallicityWeights.calc_lgmet_weights_from_lognormal_mdf x σ z i| ≤ 8e-10 := by
  have hσ0 : 0 < σ := lt_of_lt_of_le (by norm_num) hσ
  have h8 := G_float64 hu (le_refl 8) (by norm_num)
  have h80 := G_pow_nonneg A 8
  push_cast at h8
  have hη0 : 0 ≤ metEdgeErr A 10 := by unfold metEdgeErr; positivity
  have hη : metEdgeErr A 10 ≤ 4.7e-14 := by
    unfold metEdgeErr
    generalize (1 / (1 - A.u)) ^ 8 = a at *
    norm_num at h8 ⊢; linarith
  have hκ : metEdgeErr A 10 / σ ≤ 4.7e-12 := by
    rw [div_le_iff₀ hσ0]; norm_num at hη hσ ⊢; linarith
  obtain ⟨a1, a2, a3⟩ := metErr_float64 (A := A) (N := k + 3) hu hd hk hη0 hσ0 hκ (by norm_num)
  refine (C113_lgmet_weights hσ0 hB (by norm_num) he hlo hhi a1 a2 h).trans (a3.trans ?_)
  have : ((k + 3 : ℕ):ℝ) ≤ 100 := by exact_mod_cast hk
  norm_num at this ⊢; linarith

section
variable [Dtype] {t s : Fin (n + 2) → ℝ} {sfr_min L S : ℝ}

lemma lgmetErr_float64 (hu : A.u ≤ 2 ^ (-53:ℤ)) (hv0 : 0 ≤ v) (hv : v ≤ 2 ^ (-50:ℤ)) {Lz Z t_obs : ℝ} (hL0 : 0 ≤ Lz) (hL : Lz ≤ 2)
    (hZ0 : 0 ≤ Z) (hZ : Z ≤ 10) (h0 : 0.001 ≤ t_obs) (h1 : t_obs ≤ 20) :
    0 ≤ lgmetErr A v Lz Z t_obs ∧ lgmetErr A v Lz Z t_obs ≤ 1.7e-10 := by
  have hu' : A.u ≤ 1.12e-16 := hu.trans (by norm_num)
  have hv' : v ≤ 9e-16 := hv.trans (by norm_num)
  have hu0 := A.u_nonneg
  have h6 := G_float64 hu (le_refl 6) (by norm_num)
  have h60 := G_pow_nonneg A 6
  push_cast at h6
  have ht0 : 0 ≤ t_obs := le_trans (by norm_num) h0
  have hρ : expErr v 0 = v := by unfold expErr; rw [exp10_zero]; ring
  have hb0 : 0 ≤ birthErr A v 0 t_obs := by unfold birthErr; rw [hρ]; positivity
  have hb : birthErr A v 0 t_obs ≤ 4.1e-14 := by
    unfold birthErr; rw [hρ]
    have a1 := mul_le_mul (show 1 + A.u ≤ 1.0001 by norm_num at hu' ⊢; linarith) hv' hv0 (by norm_num)
    have a2 : 2 * (1 + A.u) * v + A.u ≤ 2e-15 := by norm_num at a1 hu' ⊢; linarith
    have a3 := mul_le_mul a2 h1 ht0 (by norm_num)
    norm_num at a3 hu' ⊢; linarith
  unfold lgmetErr
  refine ⟨by positivity, ?_⟩
  have a1 := mul_le_mul h6 (show 2 * Z ≤ 20 by linarith) (by linarith) (by norm_num)
  have a2 := mul_le_mul (show 10 * Lz ≤ 20 by linarith) hv' hv0 (by norm_num)
  have a3 := mul_le_mul hL (show 2000 * birthErr A v 0 t_obs ≤ 8.2e-11 by norm_num at hb ⊢; linarith) (by linarith) (by norm_num)
  norm_num at a1 a2 a3 ⊢; linarith

/-- C113: double precision: for up to 50 SSP metallicities between -10 and 10 dex, a scatter of at least 0.05 dex, and a metallicity history
with slope at most 2 (dex per dex of time), every age column of the weights is accurate to `3e-7 / n_age` in the sum norm. -/
theorem C113_lgmet_table_weights_float64 (h : Conditioned A v t s sfr_min L S) (hu : A.u ≤ 2 ^ (-53:ℤ)) (hv : v ≤ 2 ^ (-50:ℤ))
    {zt : Fin (n + 2) → ℝ} {Lz Z t_obs σ : ℝ} (hL0 : 0 ≤ Lz) (hL : Lz ≤ 2)
    (hslope : ∀ i : Fin (n + 1), |zt i.succ - zt i.castSucc| ≤ Lz * (Real.logb 10 (t i.succ) - Real.logb 10 (t i.castSucc)))
    (h0 : 0.001 ≤ t_obs) (h1 : t_obs ≤ 20) (hσ : 0.05 ≤ σ) (hZ : ∀ i, |zt i| ≤ Z) (hwin : Z + 3 * σ ≤ 10) {z : Fin (k + 3) → ℝ}
    (hB : ∀ i, |z i| ≤ 10) (hk : k + 3 ≤ 50) (he : Monotone (Utils.get_bin_edges z (-10) 10)) {d : ℕ} (hd : d ≤ 1000) {a : Fin m → ℝ}
    {out : Fin (k + 3) → Fin m → ℝ} (ho : out ∈ Rounded.calc_lgmet_weights_from_lgmet_table A v d t zt σ z a t_obs) (j : Fin m) :
    ∑ i, |out i j - MetallicityWeights.calc_lgmet_weights_from_lgmet_table t zt σ z a t_obs i j| ≤ 3e-7 / m := by
  have hu' : A.u ≤ 1.12e-16 := hu.trans (by norm_num)
  have hu0 := A.u_nonneg
  have hσ0 : 0 < σ := lt_of_lt_of_le (by norm_num) hσ
  have hm : (0:ℝ) < m := by exact_mod_cast j.pos
  have h8 := G_float64 hu (le_refl 8) (by norm_num)
  have h80 := G_pow_nonneg A 8
  push_cast at h8
  have hZ0 : 0 ≤ Z := (abs_nonneg _).trans (hZ 0)
  obtain ⟨l0, l1⟩ := lgmetErr_float64 (A := A) hu h.v_nonneg hv hL0 hL hZ0 (by linarith) h0 h1
  have hη0 : 0 ≤ metEdgeErr A 10 := by unfold metEdgeErr; positivity
  have hη : metEdgeErr A 10 ≤ 4.7e-14 := by
    unfold metEdgeErr
    generalize (1 / (1 - A.u)) ^ 8 = a at *
    norm_num at h8 ⊢; linarith
  have hκ : (metEdgeErr A 10 + lgmetErr A v Lz Z t_obs) / σ ≤ 3.41e-9 := by
    rw [div_le_iff₀ hσ0]; norm_num at hη hσ l1 ⊢; linarith
  obtain ⟨a1, a2, a3⟩ := metErr_float64 (A := A) (N := k + 3) hu hd (by omega) (by linarith) hσ0 hκ (by norm_num)
  refine (C113_lgmet_table_weights h hL0 hslope h0 (by linarith) (hv.trans (by norm_num)) hσ0 hZ hwin hB (by norm_num) he a1 a2 ho j).trans
    (div_le_div_of_nonneg_right ?_ hm.le)
  unfold metTableErr
  have hk' : ((k + 3 : ℕ):ℝ) ≤ 50 := by exact_mod_cast hk
  have a4 : normErr A d (diffErr A (k + 3) (kernErr A (metEdgeErr A 10 + lgmetErr A v Lz Z t_obs) σ) 1) 1 ≤ 2.6e-7 :=
    a3.trans (by norm_num at hk' ⊢; linarith)
  have a5 := mul_le_mul_of_nonneg_left a4 (show 0 ≤ 1 + A.u by linarith)
  norm_num at a5 hu' ⊢; linarith

end

/-! ### the hypotheses are met -/

lemma intPow_nonempty (hA : ∀ x, (A.rnd x).Nonempty) (z : ℝ) (j : ℕ) : ∃ r, Rounded.IntPow A z (j + 1) r := by
  induction j with
  | zero => exact ⟨z, .one⟩
  | succ j ih => obtain ⟨r, hr⟩ := ih; exact ⟨_, .mul hr .one (hA _).some_mem⟩

lemma kern_nonempty (hA : ∀ x, (A.rnd x).Nonempty) (x m h : ℝ) : (Rounded.tw_cuml_kern A x m h).Nonempty := by
  obtain ⟨d, hd⟩ := hA (x - m)
  obtain ⟨z, hz⟩ := hA (d / h)
  obtain ⟨z7, h7⟩ := intPow_nonempty hA z 6
  obtain ⟨z5, h5⟩ := intPow_nonempty hA z 4
  obtain ⟨z3, h3⟩ := intPow_nonempty hA z 2
  exact ⟨_, d, hd, z, hz, z7, h7, z5, h5, z3, h3, _, (hA _).some_mem, _, (hA _).some_mem, _, (hA _).some_mem, _, (hA _).some_mem,
    _, (hA _).some_mem, _, (hA _).some_mem, _, (hA _).some_mem, _, (hA _).some_mem, _, (hA _).some_mem, _, (hA _).some_mem,
    _, (hA _).some_mem, _, (hA _).some_mem, rfl⟩

lemma bin_edges_nonempty (hA : ∀ x, (A.rnd x).Nonempty) (t : Fin (n + 3) → ℝ) (lo hi : ℝ) : (Rounded.get_bin_edges A t lo hi).Nonempty :=
  ⟨_, _, (dt_nonempty hA t).some_mem, _, (vec_nonempty fun _ => hA _).some_mem, _, (vec_nonempty fun _ => hA _).some_mem, rfl⟩

lemma singlegal_nonempty (hA : ∀ x, (A.rnd x).Nonempty) {d : ℕ} (hd : k + 1 ≤ d) (x σ : ℝ) (e : Fin (k + 2) → ℝ) :
    (Rounded.get_lgmet_weights_singlegal A d x σ e).Nonempty :=
  ⟨_, _, ⟨_, (vec_nonempty fun _ => kern_nonempty hA _ _ _).some_mem, _, (vec_nonempty fun _ => kern_nonempty hA _ _ _).some_mem,
    (vec_nonempty fun _ => hA _).some_mem⟩, _, (sum_nonempty hA _ (by simpa using hd)).some_mem, _, (vec_nonempty fun _ => hA _).some_mem, rfl⟩

lemma lgmet_weights_nonempty (hA : ∀ x, (A.rnd x).Nonempty) {d : ℕ} (hd : k + 3 ≤ d) (x σ : ℝ) (z : Fin (k + 3) → ℝ) :
    (Rounded.calc_lgmet_weights_from_lognormal_mdf A d x σ z).Nonempty :=
  ⟨_, _, (bin_edges_nonempty hA _ _ _).some_mem, (singlegal_nonempty hA (k := k + 2) hd _ _ _).some_mem⟩

lemma lgmet_at_ages_nonempty [Dtype] (hA : ∀ x, (A.rnd x).Nonempty) (hv : 0 ≤ v) (t zt : Fin (n + 2) → ℝ) (a : Fin m → ℝ) (t_obs : ℝ) :
    (Rounded.calc_lgmet_at_ssp_lgage_table A v t zt a t_obs).Nonempty :=
  ⟨_, _, (vec_nonempty fun _ => log10_nonempty hv _).some_mem, _, (vec_nonempty fun _ => lgt_birth_nonempty hA hv _ _).some_mem,
    (vec_nonempty fun _ => interp_nonempty hA _ _ _).some_mem⟩

lemma lgmet_table_weights_nonempty [Dtype] (hA : ∀ x, (A.rnd x).Nonempty) (hv : 0 ≤ v) {d : ℕ} (hd : k + 3 ≤ d) (t zt : Fin (n + 2) → ℝ)
    (σ : ℝ) (z : Fin (k + 3) → ℝ) (a : Fin m → ℝ) (t_obs : ℝ) :
    (Rounded.calc_lgmet_weights_from_lgmet_table A v d t zt σ z a t_obs).Nonempty := by
  obtain ⟨x, hx⟩ := lgmet_at_ages_nonempty (m := m) hA hv t zt a t_obs
  obtain ⟨e, he⟩ := bin_edges_nonempty hA z LGMET_LO LGMET_HI
  exact ⟨_, x, hx, e, he, _, fun i => (singlegal_nonempty hA (k := k + 2) hd (x i) σ e).some_mem, fun j i => (hA _).some_mem⟩

/-- the SSP metallicities of the example: -2, -1, 0 -/
noncomputable abbrev zGrid : Fin 3 → ℝ := fun i => (-2:ℝ) + i * 1

lemma zGrid_le (i : Fin 3) : |zGrid i| ≤ 2 := by fin_cases i <;> norm_num [zGrid]

lemma zGrid_edges : Monotone (Utils.get_bin_edges zGrid (-10) 10) := by
  have := (lgmet_edges_mono zGrid (mildlySpaced_uniform (-2) 1 one_pos) (by norm_num [zGrid]) (by simp [zGrid, Fin.last])).monotone
  rw [show LGMET_LO = -10 by norm_num [LGMET_LO], show LGMET_HI = 10 by norm_num [LGMET_HI]] at this
  exact this

/-- the double-precision theorems apply to a concrete machine computation: metallicity -1.1 with scatter 0.2, and a history rising from -1.5 at
1 Gyr to -0.5 at 10 Gyr -/
example : letI := Dtype.float64
    ∃ (W : Fin 3 → ℝ) (V : Fin 3 → Fin 4 → ℝ), W ∈ Rounded.calc_lgmet_weights_from_lognormal_mdf f64 3 (-1.1) 0.2 zGrid ∧
      V ∈ Rounded.calc_lgmet_weights_from_lgmet_table f64 (2 ^ (-50:ℤ)) 3 tEx (fun i => (-1.5:ℝ) + i) 0.2 zGrid (fun i => (i:ℝ) - 2) 10 ∧
      ∑ i, |W i - MetallicityWeights.calc_lgmet_weights_from_lognormal_mdf (-1.1) 0.2 zGrid i| ≤ 8e-10 ∧
      ∀ j, ∑ i, |V i j - MetallicityWeights.calc_lgmet_weights_from_lgmet_table tEx (fun i => (-1.5:ℝ) + i) 0.2 zGrid
        (fun i : Fin 4 => (i:ℝ) - 2) 10 i j| ≤ 3e-7 / 4 := by
  letI := Dtype.float64
  have hA := binary_nonempty 53 (by norm_num)
  have hv : (0:ℝ) ≤ 2 ^ (-50:ℤ) := by positivity
  have hu : f64.u ≤ 2 ^ (-53:ℤ) := by show ((1:ℝ) / 2) ^ 53 ≤ _; norm_num
  obtain ⟨W, hW⟩ := lgmet_weights_nonempty (A := f64) (k := 0) hA (d := 3) le_rfl (-1.1) 0.2 zGrid
  obtain ⟨V, hV⟩ := lgmet_table_weights_nonempty (A := f64) (v := 2 ^ (-50:ℤ)) (k := 0) (n := 0) (m := 4) hA hv (d := 3) le_rfl tEx
    (fun i => (-1.5:ℝ) + i) 0.2 zGrid (fun i => (i:ℝ) - 2) 10
  have hz : ∀ i, |zGrid i| ≤ 10 := fun i => (zGrid_le i).trans (by norm_num)
  refine ⟨W, V, hW, hV, C113_lgmet_weights_float64 (k := 0) hu (by norm_num) hz (by norm_num) zGrid_edges (by norm_num) (by norm_num)
    (by norm_num) hW, fun j => ?_⟩
  refine (C113_lgmet_table_weights_float64 (k := 0) conditionedEx hu le_rfl (Lz := 1) (Z := 1.5) (by norm_num) (by norm_num) ?_ (by norm_num)
    (by norm_num) (by norm_num) ?_ (by norm_num) hz (by norm_num) zGrid_edges (by norm_num) hV j).trans (by norm_num)
  · intro i
    have e1 := log10_tEx i.succ
    have e2 := log10_tEx i.castSucc
    unfold log10 at e1 e2
    rw [e1, e2]
    fin_cases i
    norm_num
  · intro i; fin_cases i <;> norm_num

end Dsps.Props
