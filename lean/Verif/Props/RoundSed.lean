import Verif.Lemmas.RoundJoint
import Verif.Props.RoundMet
import Verif.Props.Rounding

/-! C114: floating-point accuracy of a rest-frame SED, from the inputs of the two SED functions on. -/
namespace Dsps.Props
open Jnp Fl Dsps.Lemmas Dsps.Constants Spec

variable {A : Arith} {v : ℝ} {n m k w : ℕ}

section
variable [Dtype] {t s : Fin (n + 2) → ℝ} {sfr_min L S : ℝ}

/-- C114: age weights in the sum norm (hypotheses as in C112). -/
theorem C114_age_weights_l1 (h : Conditioned A v t s sfr_min L S) {K B t_obs : ℝ} {a : Fin (m + 3) → ℝ} (hB : ∀ i, |a i| ≤ B)
    (hmono : Monotone (StellarAgeWeights.get_lg_age_bin_edges a))
    (hK : ∀ x y, 0 < x → 0 < y → |massFormed t s sfr_min x - massFormed t s sfr_min y| ≤ K * |x - y|)
    (h0 : 0.001 ≤ t_obs) (h1 : t_obs ≤ 1000) (hsmall : expErr v (((1 / (1 - A.u)) ^ 8 - 1) * (5 / 2 * B)) ≤ 1 / 2) {μ Δ : ℝ}
    (hμ : massErr A v n L S K B t_obs (massFormed t s sfr_min (t (Fin.last (n + 1)))) ≤ μ)
    (hΔ : massFormed t s sfr_min (birthTime t_obs (StellarAgeWeights.get_lg_age_bin_edges a 0))
      - massFormed t s sfr_min (birthTime t_obs (StellarAgeWeights.get_lg_age_bin_edges a (Fin.last (m + 3)))) = Δ)
    {d : ℕ} (hd : sumErr A d (diffErr A (m + 3) μ Δ) Δ < Δ) {w : Fin (m + 3) → ℝ}
    (hw : w ∈ Rounded.calc_age_weights_from_sfh_table A v d t s a t_obs sfr_min) :
    ∑ i, |w i - StellarAgeWeights.calc_age_weights_from_sfh_table t s a t_obs sfr_min i| ≤ normErr A d (diffErr A (m + 3) μ Δ) Δ := by
  obtain ⟨lsm, hs, lgt, hl, e, he, x, hx, r, hr, M, hM, df, hdf, hw⟩ := hw
  have key : ∀ i, |M i - massFormed t s sfr_min (birthTime t_obs (StellarAgeWeights.get_lg_age_bin_edges a i))| ≤ μ := fun i =>
    (edge_err h hB hK h0 h1 hsmall hl hs he (hx i) (hr i) (hM i)).trans hμ
  have anti : Antitone fun i => massFormed t s sfr_min (birthTime t_obs (StellarAgeWeights.get_lg_age_bin_edges a i)) := fun i j hij =>
    massFormed_mono h.increasing h.start' h.floor (birthTime_pos _ _) (birthTime_anti _ (hmono hij))
  simp only [age_weights_eq]
  have := weights_l1 anti key hdf hw (by rw [hΔ]; exact hd)
  rw [hΔ] at this ⊢
  exact this

/-- the age weights are a probability vector as soon as some mass lies in the age grid -/
lemma age_prob (h : Conditioned A v t s sfr_min L S) {t_obs : ℝ} {a : Fin (m + 3) → ℝ}
    (hmono : Monotone (StellarAgeWeights.get_lg_age_bin_edges a))
    (hΔ : 0 < massFormed t s sfr_min (birthTime t_obs (StellarAgeWeights.get_lg_age_bin_edges a 0))
      - massFormed t s sfr_min (birthTime t_obs (StellarAgeWeights.get_lg_age_bin_edges a (Fin.last (m + 3))))) :
    IsProbVector (StellarAgeWeights.calc_age_weights_from_sfh_table t s a t_obs sfr_min) := by
  constructor
  · intro i
    rw [age_weights_eq]
    refine div_nonneg (sub_nonneg.mpr ?_) hΔ.le
    exact massFormed_mono h.increasing h.start' h.floor (birthTime_pos _ _) (birthTime_anti _ (hmono (Fin.castSucc_lt_succ (i := i)).le))
  · simp only [age_weights_eq, ← Finset.sum_div]
    rw [sum_telescope' (fun i => massFormed t s sfr_min (birthTime t_obs (StellarAgeWeights.get_lg_age_bin_edges a i)))]
    exact div_self hΔ.ne'

/-- C114: from accurate marginal weights and mass to the SED, lognormal metallicity distribution: if the computed metallicity weights are
within `e1`, the age weights within `e2` (sum norm) and the mass within a fraction `ρ`, every computed SED is within
`sedErr · F · M` of the exact one, where `F` is the largest SSP flux at that wavelength and `M` the mass. -/
theorem C114_sed_lognormal {lgmet σ t_obs : ℝ} {z : Fin (k + 3) → ℝ} {a : Fin (m + 3) → ℝ} {flux : Fin (k + 3) → Fin (m + 3) → Fin w → ℝ}
    {S₀ : ℝ} (hmet : IsProbVector (MetallicityWeights.calc_lgmet_weights_from_lognormal_mdf lgmet σ z))
    (hage : IsProbVector (StellarAgeWeights.calc_age_weights_from_sfh_table t s a t_obs SFR_MIN)) {e1 e2 ρ : ℝ} {d : Rounded.Depths}
    (h1 : ∀ W ∈ Rounded.calc_lgmet_weights_from_lognormal_mdf A d.met lgmet σ z,
      ∑ i, |W i - MetallicityWeights.calc_lgmet_weights_from_lognormal_mdf lgmet σ z i| ≤ e1)
    (h2 : ∀ W ∈ Rounded.calc_age_weights_from_sfh_table A v d.age t s a t_obs SFR_MIN,
      ∑ j, |W j - StellarAgeWeights.calc_age_weights_from_sfh_table t s a t_obs SFR_MIN j| ≤ e2)
    (h3 : ∀ M ∈ Rounded.mstar_obs A v t s t_obs S₀,
      |M - SspWeights.mstar_obs t s t_obs S₀| ≤ ρ * SspWeights.mstar_obs t s t_obs S₀)
    (hd : sumErr A d.joint ((1 + A.u) * (1 + e1) * (1 + e2) - 1) 1 < 1) {out : Fin w → ℝ}
    (ho : out ∈ Rounded.calc_rest_sed_sfh_table_lognormal_mdf A v d t s lgmet σ z a flux t_obs S₀) (l : Fin w) {F : ℝ}
    (hF : ∀ i j, |flux i j l| ≤ F) :
    |out l - (SspWeights.calc_rest_sed_sfh_table_lognormal_mdf t s lgmet σ z a flux t_obs S₀).rest_sed l| ≤
      sedErr A d.sed (jointErr A d.joint e1 e2) ρ * (F * SspWeights.mstar_obs t s t_obs S₀) := by
  obtain ⟨age, ha, lg, hl, wt, hw, M, hM, ho⟩ := ho
  set LG := MetallicityWeights.calc_lgmet_weights_from_lognormal_mdf lgmet σ z
  set AG := StellarAgeWeights.calc_age_weights_from_sfh_table t s a t_obs SFR_MIN
  have hone : ∑ i, ∑ j, LG i * AG j = 1 := by rw [← Fintype.sum_mul_sum, hmet.2, hage.2, one_mul]
  have hj := joint_l1 (lg0 := fun i _ => LG i) (fun i _ => hmet.1 i) hage.1 one_pos (fun _ => hmet.2) hage.2
    (fun _ => by rw [one_mul]; exact h1 lg hl) (h2 age ha) hd hw
  have hM0 : 0 ≤ SspWeights.mstar_obs t s t_obs S₀ := by simp only [SspWeights.mstar_obs, Jnp.exp10]; positivity
  have hsum : ∑ ij : Fin (k + 3) × Fin (m + 3), LG ij.1 * AG ij.2 / ∑ i, ∑ j, LG i * AG j = 1 := by
    rw [← Finset.sum_div, Fintype.sum_prod_type, hone, div_one]
  have := sed_l1 (wt0 := fun ij : Fin (k + 3) × Fin (m + 3) => LG ij.1 * AG ij.2 / ∑ i, ∑ j, LG i * AG j) l hF
    (fun ij => by rw [hone, div_one]; exact mul_nonneg (hmet.1 _) (hage.1 _)) hsum hj hM0 (h3 M hM) ho
  have ev : (SspWeights.calc_rest_sed_sfh_table_lognormal_mdf t s lgmet σ z a flux t_obs S₀).rest_sed l
      = (∑ ij : Fin (k + 3) × Fin (m + 3), flux ij.1 ij.2 l * (LG ij.1 * AG ij.2 / ∑ i, ∑ j, LG i * AG j))
        * SspWeights.mstar_obs t s t_obs S₀ := by
    rw [Fintype.sum_prod_type]; rfl
  rw [ev]; exact this

/-- C114: the same for a tabulated metallicity history; `e1` is relative to the column sums `1 / n_age` of the metallicity weights. -/
theorem C114_sed_met_table {σ t_obs : ℝ} {zt : Fin (n + 2) → ℝ} {z : Fin (k + 3) → ℝ} {a : Fin (m + 3) → ℝ}
    {flux : Fin (k + 3) → Fin (m + 3) → Fin w → ℝ} {S₀ : ℝ} (hσ : 0 < σ) (he : Monotone (Utils.get_bin_edges z (-10) 10))
    (hage : IsProbVector (StellarAgeWeights.calc_age_weights_from_sfh_table t s a t_obs SFR_MIN)) {e1 e2 ρ : ℝ} {d : Rounded.Depths}
    (h1 : ∀ W ∈ Rounded.calc_lgmet_weights_from_lgmet_table A v d.met t zt σ z a t_obs, ∀ j,
      ∑ i, |W i j - MetallicityWeights.calc_lgmet_weights_from_lgmet_table t zt σ z a t_obs i j| ≤ e1 / (m + 3 : ℕ))
    (h2 : ∀ W ∈ Rounded.calc_age_weights_from_sfh_table A v d.age t s a t_obs SFR_MIN,
      ∑ j, |W j - StellarAgeWeights.calc_age_weights_from_sfh_table t s a t_obs SFR_MIN j| ≤ e2)
    (h3 : ∀ M ∈ Rounded.mstar_obs A v t s t_obs S₀,
      |M - SspWeights.mstar_obs t s t_obs S₀| ≤ ρ * SspWeights.mstar_obs t s t_obs S₀)
    (hd : sumErr A d.joint ((1 + A.u) * (1 + e1) * (1 + e2) - 1) 1 < 1) {out : Fin w → ℝ}
    (ho : out ∈ Rounded.calc_rest_sed_sfh_table_met_table A v d t s zt σ z a flux t_obs S₀) (l : Fin w) {F : ℝ}
    (hF : ∀ i j, |flux i j l| ≤ F) :
    |out l - (SspWeights.calc_rest_sed_sfh_table_met_table t s zt σ z a flux t_obs S₀).rest_sed l| ≤
      sedErr A d.sed (jointErr A d.joint e1 e2) ρ * (F * SspWeights.mstar_obs t s t_obs S₀) := by
  obtain ⟨age, ha, lg, hl, wt, hw, M, hM, ho⟩ := ho
  obtain ⟨hlg, hcol, _⟩ := C22_lgmet_table_weights_partial (m := m + 2) t zt σ hσ z a t_obs he
  set LG := MetallicityWeights.calc_lgmet_weights_from_lgmet_table t zt σ z a t_obs
  set AG := StellarAgeWeights.calc_age_weights_from_sfh_table t s a t_obs SFR_MIN
  have hc : (0:ℝ) < 1 / ((m + 3 : ℕ) : ℝ) := by positivity
  have hcol' : ∀ j, ∑ i, LG i j = 1 / ((m + 3 : ℕ) : ℝ) := fun j => by rw [hcol j]; push_cast; ring
  have hone : ∑ i, ∑ j, LG i j * AG j = 1 / ((m + 3 : ℕ) : ℝ) := by
    rw [Finset.sum_comm]
    simp only [← Finset.sum_mul, hcol']
    rw [← Finset.mul_sum, hage.2, mul_one]
  have hj := joint_l1 (lg0 := LG) hlg hage.1 hc hcol' hage.2
    (fun j => by have := h1 lg hl j; rw [div_mul_eq_mul_div, one_mul]; exact this) (h2 age ha) hd hw
  have hM0 : 0 ≤ SspWeights.mstar_obs t s t_obs S₀ := by simp only [SspWeights.mstar_obs, Jnp.exp10]; positivity
  have hsum : ∑ ij : Fin (k + 3) × Fin (m + 3), LG ij.1 ij.2 * AG ij.2 / ∑ i, ∑ j, LG i j * AG j = 1 := by
    rw [← Finset.sum_div, Fintype.sum_prod_type, div_self (by rw [hone]; exact hc.ne')]
  have := sed_l1 (wt0 := fun ij : Fin (k + 3) × Fin (m + 3) => LG ij.1 ij.2 * AG ij.2 / ∑ i, ∑ j, LG i j * AG j) l hF
    (fun ij => by rw [hone]; exact div_nonneg (mul_nonneg (hlg _ _) (hage.1 _)) hc.le) hsum hj hM0 (h3 M hM) ho
  have ev : (SspWeights.calc_rest_sed_sfh_table_met_table t s zt σ z a flux t_obs S₀).rest_sed l
      = (∑ ij : Fin (k + 3) × Fin (m + 3), flux ij.1 ij.2 l * (LG ij.1 ij.2 * AG ij.2 / ∑ i, ∑ j, LG i j * AG j))
        * SspWeights.mstar_obs t s t_obs S₀ := by
    rw [Fintype.sum_prod_type]; rfl
  rw [ev]; exact this

/-! ### double precision, numbers -/

lemma jointErr_float64 (hu : A.u ≤ 2 ^ (-53:ℤ)) {d d' : ℕ} (hd : d ≤ 10000) (hd' : d' ≤ 9999) {e1 : ℝ} (h0 : 0 ≤ e1) (h1 : e1 ≤ 3e-7) :
    sumErr A d ((1 + A.u) * (1 + e1) * (1 + 6.1e-6) - 1) 1 < 1 ∧ sedErr A d' (jointErr A d e1 6.1e-6) 1.4e-11 ≤ 1.3e-5 := by
  have hu' : A.u ≤ 1.12e-16 := hu.trans (by norm_num)
  have hu0 := A.u_nonneg
  have hγ := G_float64 hu hd (by norm_num)
  have hγ' := G_float64 hu (show d' + 1 ≤ 10000 by omega) (by norm_num)
  push_cast at hγ hγ'
  have hE : (1 + A.u) * (1 + e1) * (1 + 6.1e-6) - 1 ≤ 6.401e-6 := by
    have a1 := mul_le_mul (show 1 + A.u ≤ 1 + 1.12e-16 by linarith) (show 1 + e1 ≤ 1 + 3e-7 by linarith) (by linarith) (by norm_num)
    have a2 := mul_le_mul_of_nonneg_right a1 (show (0:ℝ) ≤ 1 + 6.1e-6 by norm_num)
    norm_num at a2 ⊢; linarith
  have hE0 : 0 ≤ (1 + A.u) * (1 + e1) * (1 + 6.1e-6) - 1 := by
    have a1 : (1:ℝ) ≤ (1 + A.u) * (1 + e1) := by nlinarith
    have : (1:ℝ) ≤ (1 + A.u) * (1 + e1) * (1 + 6.1e-6) := by
      have := mul_le_mul_of_nonneg_right a1 (show (0:ℝ) ≤ 1 + 6.1e-6 by norm_num)
      norm_num at this ⊢; linarith
    linarith
  obtain ⟨n1, n2⟩ := normErr_le (A := A) (d := d) one_pos hE0 (by norm_num at hE ⊢; linarith) hγ (by norm_num) (by norm_num at hu' ⊢; linarith)
  refine ⟨n1, ?_⟩
  rw [div_one] at n2
  have hj : jointErr A d e1 6.1e-6 ≤ 1.288e-5 := by
    unfold jointErr
    refine n2.trans ?_
    generalize (1 + A.u) * (1 + e1) * (1 + 6.1e-6) - 1 = E at hE
    norm_num at hE hu' ⊢; linarith
  have hj0 : 0 ≤ jointErr A d e1 6.1e-6 := by
    unfold jointErr normErr
    have := sumErr_nonneg (A := A) (d := d) hE0 zero_le_one
    have h2 : 0 ≤ 1 - sumErr A d ((1 + A.u) * (1 + e1) * (1 + 6.1e-6) - 1) 1 := by linarith
    positivity
  unfold sedErr
  have hG0 := G_pow_nonneg A (d' + 1)
  generalize (1 / (1 - A.u)) ^ (d' + 1) = G at *
  have a1 := mul_le_mul (show 1 + A.u ≤ 1 + 1.12e-16 by linarith) (show G ≤ 1 + 2.3e-12 by norm_num at hγ' ⊢; linarith) (by linarith) (by norm_num)
  have a2 := mul_le_mul a1 (show 1 + jointErr A d e1 6.1e-6 ≤ 1 + 1.288e-5 by linarith) (by linarith) (by norm_num)
  have a3 := mul_le_mul_of_nonneg_right a2 (show (0:ℝ) ≤ 1 + 1.4e-11 by norm_num)
  norm_num at a3 ⊢; linarith

/-- C114: age weights, double precision: up to 200 ages, otherwise as in `C112_age_weights_float64`: the sum of the errors is at most 6.1e-6. -/
theorem C114_age_weights_float64 (h : Conditioned A v t s sfr_min L S) (hu : A.u ≤ 2 ^ (-53:ℤ)) (hv : v ≤ 2 ^ (-50:ℤ)) (hn : n ≤ 1000)
    (hm : m + 3 ≤ 200) (hL : L ≤ 100) (hS : S ≤ 20) {K t_obs : ℝ} {a : Fin (m + 3) → ℝ} (hB : ∀ i, |a i| ≤ 6)
    (hmono : Monotone (StellarAgeWeights.get_lg_age_bin_edges a))
    (hK : ∀ x y, 0 < x → 0 < y → |massFormed t s sfr_min x - massFormed t s sfr_min y| ≤ K * |x - y|)
    (hKM : K * t_obs ≤ 1000 * massFormed t s sfr_min (t (Fin.last (n + 1))))
    (h0 : 0.001 ≤ t_obs) (h1 : t_obs ≤ 1000)
    (hΔ : massFormed t s sfr_min (t (Fin.last (n + 1))) ≤
      10 * (massFormed t s sfr_min (birthTime t_obs (StellarAgeWeights.get_lg_age_bin_edges a 0))
        - massFormed t s sfr_min (birthTime t_obs (StellarAgeWeights.get_lg_age_bin_edges a (Fin.last (m + 3))))))
    {d : ℕ} (hd : d ≤ 1000) {w : Fin (m + 3) → ℝ}
    (hw : w ∈ Rounded.calc_age_weights_from_sfh_table A v d t s a t_obs sfr_min) :
    ∑ i, |w i - StellarAgeWeights.calc_age_weights_from_sfh_table t s a t_obs sfr_min i| ≤ 6.1e-6 := by
  have hu' : A.u ≤ 1.12e-16 := hu.trans (by norm_num)
  have hu0 := A.u_nonneg
  have hMpos : 0 < massFormed t s sfr_min (t (Fin.last (n + 1))) := massFormed_pos _
  have hK0 : 0 ≤ K := by
    have := (abs_nonneg _).trans (hK 1 2 (by norm_num) (by norm_num))
    norm_num at this; exact this
  obtain ⟨hs, hμ⟩ := massErr_float64 (A := A) (n := n) hu h.v_nonneg hv hn h.L_nonneg hL h.one_le hS hK0 hMpos.le h0 hKM
  have hγ := G_float64 hu hd (by norm_num)
  push_cast at hγ
  set Δ := massFormed t s sfr_min (birthTime t_obs (StellarAgeWeights.get_lg_age_bin_edges a 0))
        - massFormed t s sfr_min (birthTime t_obs (StellarAgeWeights.get_lg_age_bin_edges a (Fin.last (m + 3)))) with hΔe
  have hΔ0 : 0 < Δ := by linarith
  have hμΔ : 7.5e-10 * massFormed t s sfr_min (t (Fin.last (n + 1))) ≤ 7.5e-9 * Δ := by norm_num at hΔ ⊢; linarith
  have hN : ((m + 3 : ℕ) : ℝ) ≤ 200 := by exact_mod_cast hm
  have hN0 : (0:ℝ) ≤ ((m + 3 : ℕ) : ℝ) := Nat.cast_nonneg _
  have hE : diffErr A (m + 3) (7.5e-9 * Δ) Δ ≤ 3.01e-6 * Δ := by
    unfold diffErr
    have a1 := mul_le_mul (show 2 * ((m + 3 : ℕ) : ℝ) ≤ 400 by linarith) (show 1 + A.u ≤ 1.0001 by norm_num at hu' ⊢; linarith) (by linarith)
      (by norm_num)
    have a2 := mul_le_mul_of_nonneg_right a1 (show 0 ≤ 7.5e-9 * Δ by positivity)
    have a3 := mul_le_mul_of_nonneg_right hu' hΔ0.le
    rw [← mul_assoc]
    norm_num at a2 a3 ⊢; linarith
  have hE0 : 0 ≤ diffErr A (m + 3) (7.5e-9 * Δ) Δ := by unfold diffErr; positivity
  obtain ⟨n1, n2⟩ := normErr_le (A := A) (d := d) hΔ0 hE0 (by norm_num at hE ⊢; linarith) hγ (by norm_num) (by norm_num at hu' ⊢; linarith)
  refine (C114_age_weights_l1 h hB hmono hK h0 h1 hs (hμ.trans hμΔ) rfl n1 hw).trans (n2.trans ?_)
  have a4 : diffErr A (m + 3) (7.5e-9 * Δ) Δ / Δ ≤ 3.01e-6 := by rw [div_le_iff₀ hΔ0]; exact hE
  norm_num at a4 hu' ⊢; linarith

/-- **Conditions for double precision** on the star-formation history, the age grid and the time of observation: a table of at most 1002
times, log-log slope at most 100, masses between `10^-20` and `10^20`; at most 200 SSP ages, between `10^-6` and `10^6` Gyr; growth rate at
most `1000 M / t_obs`; at least a tenth of the mass in the age grid. -/
structure Float64Sfh [Dtype] (A : Arith) (v : ℝ) (t s : Fin (n + 2) → ℝ) (a : Fin (m + 3) → ℝ) (t_obs sfr_min : ℝ) : Prop where
  u_le : A.u ≤ 2 ^ (-53:ℤ)
  v_le : v ≤ 2 ^ (-50:ℤ)
  n_times : n ≤ 1000
  n_ages : m + 3 ≤ 200
  /-- the weights use the default floor, whatever `sfr_min` -/
  weights : ∃ L S, L ≤ 100 ∧ S ≤ 20 ∧ Conditioned A v t s SFR_MIN L S
  mass : ∃ L S, L ≤ 100 ∧ S ≤ 20 ∧ Conditioned A v t s sfr_min L S
  ages : ∀ i, |a i| ≤ 6
  edges : Monotone (StellarAgeWeights.get_lg_age_bin_edges a)
  growth : ∃ K, (∀ x y, 0 < x → 0 < y → |massFormed t s SFR_MIN x - massFormed t s SFR_MIN y| ≤ K * |x - y|) ∧
    K * t_obs ≤ 1000 * massFormed t s SFR_MIN (t (Fin.last (n + 1)))
  obs : 0.001 ≤ t_obs ∧ t_obs ≤ 20
  covered : massFormed t s SFR_MIN (t (Fin.last (n + 1))) ≤
    10 * (massFormed t s SFR_MIN (birthTime t_obs (StellarAgeWeights.get_lg_age_bin_edges a 0))
      - massFormed t s SFR_MIN (birthTime t_obs (StellarAgeWeights.get_lg_age_bin_edges a (Fin.last (m + 3)))))

namespace Float64Sfh
variable {a : Fin (m + 3) → ℝ} {t_obs : ℝ}

lemma age_prob (h : Float64Sfh A v t s a t_obs sfr_min) :
    IsProbVector (StellarAgeWeights.calc_age_weights_from_sfh_table t s a t_obs SFR_MIN) := by
  obtain ⟨L, S, _, _, hc⟩ := h.weights
  refine Props.age_prob hc h.edges ?_
  have h1 := h.covered
  have h2 : 0 < massFormed t s SFR_MIN (t (Fin.last (n + 1))) := massFormed_pos _
  linarith

lemma age_l1 (h : Float64Sfh A v t s a t_obs sfr_min) {d : ℕ} (hd : d ≤ 1000) {w : Fin (m + 3) → ℝ}
    (hw : w ∈ Rounded.calc_age_weights_from_sfh_table A v d t s a t_obs SFR_MIN) :
    ∑ i, |w i - StellarAgeWeights.calc_age_weights_from_sfh_table t s a t_obs SFR_MIN i| ≤ 6.1e-6 := by
  obtain ⟨L, S, hL, hS, hc⟩ := h.weights
  obtain ⟨K, hK, hKM⟩ := h.growth
  exact C114_age_weights_float64 hc h.u_le h.v_le h.n_times h.n_ages hL hS h.ages h.edges hK hKM h.obs.1 (h.obs.2.trans (by norm_num)) h.covered hd hw

lemma mass_rel (h : Float64Sfh A v t s a t_obs sfr_min) {M : ℝ} (hM : M ∈ Rounded.mstar_obs A v t s t_obs sfr_min) :
    |M - SspWeights.mstar_obs t s t_obs sfr_min| ≤ 1.4e-11 * SspWeights.mstar_obs t s t_obs sfr_min := by
  obtain ⟨L, S, hL, hS, hc⟩ := h.mass
  exact C112_mstar_obs_float64 hc h.u_le h.v_le h.n_times hL hS h.obs.1 (h.obs.2.trans (by norm_num)) hM

end Float64Sfh

/-- C114: **end to end, double precision**: `calc_rest_sed_sfh_table_lognormal_mdf` from its inputs: up to 100 SSP metallicities between -10 and
10 dex and a scatter of at least 0.01 dex.  At every wavelength the computed SED is within 1.3e-5 of the exact one, relative to the
brightest SSP times the mass, whatever the order in which the sums are evaluated. -/
theorem C114_sed_lognormal_float64 {a : Fin (m + 3) → ℝ} {t_obs : ℝ} (h : Float64Sfh A v t s a t_obs sfr_min) {lgmet σ : ℝ}
    {z : Fin (k + 3) → ℝ} (hσ : 0.01 ≤ σ) (hz : ∀ i, |z i| ≤ 10) (hk : k + 3 ≤ 100) (he : Monotone (Utils.get_bin_edges z (-10) 10))
    (hlo : -10 ≤ lgmet - 3 * σ) (hhi : lgmet + 3 * σ ≤ 10) {d : Rounded.Depths} (hd1 : d.met ≤ 1000) (hd2 : d.age ≤ 1000)
    (hd3 : d.joint ≤ 10000) (hd4 : d.sed ≤ 9999) {flux : Fin (k + 3) → Fin (m + 3) → Fin w → ℝ} {out : Fin w → ℝ}
    (ho : out ∈ Rounded.calc_rest_sed_sfh_table_lognormal_mdf A v d t s lgmet σ z a flux t_obs sfr_min) (l : Fin w) {F : ℝ}
    (hF : ∀ i j, |flux i j l| ≤ F) :
    |out l - (SspWeights.calc_rest_sed_sfh_table_lognormal_mdf t s lgmet σ z a flux t_obs sfr_min).rest_sed l| ≤
      1.3e-5 * (F * SspWeights.mstar_obs t s t_obs sfr_min) := by
  have hσ0 : 0 < σ := lt_of_lt_of_le (by norm_num) hσ
  obtain ⟨j1, j2⟩ := jointErr_float64 (A := A) h.u_le hd3 hd4 (e1 := 8e-10) (by norm_num) (by norm_num)
  have hmet : IsProbVector (MetallicityWeights.calc_lgmet_weights_from_lognormal_mdf lgmet σ z) := by
    have e1 : LGMET_LO = -10 := by norm_num [LGMET_LO]
    have e2 : LGMET_HI = 10 := by norm_num [LGMET_HI]
    have el : Utils.get_bin_edges z (-10) 10 (Fin.last (k + 2 + 1)) = 10 := edges_last z (-10) 10
    have ev : MetallicityWeights.calc_lgmet_weights_from_lognormal_mdf lgmet σ z =
        Utils.triweighted_histogram lgmet σ (Utils.get_bin_edges z (-10) 10) := by
      simp only [MetallicityWeights.calc_lgmet_weights_from_lognormal_mdf, e1, e2]
      exact hist_sum_one hσ0 (by rw [edges_zero]; exact hlo) (by rw [el]; exact hhi)
    rw [ev]
    exact ⟨(C03_histogram_partition lgmet σ hσ0 _).2.2 he,
      C03_histogram_total_one lgmet σ hσ0 _ (by rw [edges_zero]; exact hlo) (by rw [el]; exact hhi)⟩
  have hF0 : 0 ≤ F := (abs_nonneg _).trans (hF 0 0)
  have hM0 : 0 ≤ SspWeights.mstar_obs t s t_obs sfr_min := by simp only [SspWeights.mstar_obs, Jnp.exp10]; positivity
  exact (C114_sed_lognormal hmet h.age_prob (fun W hW => C113_lgmet_weights_float64 h.u_le hσ hz hk he hlo hhi hd1 hW)
    (fun W hW => h.age_l1 hd2 hW) (fun M hM => h.mass_rel hM) j1 ho l hF).trans (mul_le_mul_of_nonneg_right j2 (mul_nonneg hF0 hM0))

/-- C114: **end to end, double precision**: `calc_rest_sed_sfh_table_met_table`: up to 50 SSP metallicities, a scatter of at least 0.05
dex, and a metallicity history of slope at most 2 (dex per dex of time). -/
theorem C114_sed_met_table_float64 {a : Fin (m + 3) → ℝ} {t_obs : ℝ} (h : Float64Sfh A v t s a t_obs sfr_min) {σ Lz Z : ℝ}
    {zt : Fin (n + 2) → ℝ} (hL0 : 0 ≤ Lz) (hL : Lz ≤ 2)
    (hslope : ∀ i : Fin (n + 1), |zt i.succ - zt i.castSucc| ≤ Lz * (Real.logb 10 (t i.succ) - Real.logb 10 (t i.castSucc)))
    {z : Fin (k + 3) → ℝ} (hσ : 0.05 ≤ σ) (hZ : ∀ i, |zt i| ≤ Z) (hwin : Z + 3 * σ ≤ 10) (hz : ∀ i, |z i| ≤ 10) (hk : k + 3 ≤ 50)
    (he : Monotone (Utils.get_bin_edges z (-10) 10)) {d : Rounded.Depths} (hd1 : d.met ≤ 1000) (hd2 : d.age ≤ 1000)
    (hd3 : d.joint ≤ 10000) (hd4 : d.sed ≤ 9999) {flux : Fin (k + 3) → Fin (m + 3) → Fin w → ℝ} {out : Fin w → ℝ}
    (ho : out ∈ Rounded.calc_rest_sed_sfh_table_met_table A v d t s zt σ z a flux t_obs sfr_min) (l : Fin w) {F : ℝ}
    (hF : ∀ i j, |flux i j l| ≤ F) :
    |out l - (SspWeights.calc_rest_sed_sfh_table_met_table t s zt σ z a flux t_obs sfr_min).rest_sed l| ≤
      1.3e-5 * (F * SspWeights.mstar_obs t s t_obs sfr_min) := by
  have hσ0 : 0 < σ := lt_of_lt_of_le (by norm_num) hσ
  obtain ⟨j1, j2⟩ := jointErr_float64 (A := A) h.u_le hd3 hd4 (e1 := 3e-7) (by norm_num) (by norm_num)
  obtain ⟨L, S, _, _, hc⟩ := h.weights
  have hF0 : 0 ≤ F := (abs_nonneg _).trans (hF 0 0)
  have hM0 : 0 ≤ SspWeights.mstar_obs t s t_obs sfr_min := by simp only [SspWeights.mstar_obs, Jnp.exp10]; positivity
  exact (C114_sed_met_table hσ0 he h.age_prob (fun W hW j => C113_lgmet_table_weights_float64 hc h.u_le h.v_le hL0 hL hslope h.obs.1 h.obs.2 hσ hZ
    hwin hz hk he hd1 hW j) (fun W hW => h.age_l1 hd2 hW) (fun M hM => h.mass_rel hM) j1 ho l hF).trans
    (mul_le_mul_of_nonneg_right j2 (mul_nonneg hF0 hM0))

end

/-! ### the hypotheses are met -/

lemma sed_lognormal_nonempty [Dtype] (hA : ∀ x, (A.rnd x).Nonempty) (hv : 0 ≤ v) {d : Rounded.Depths} (h1 : k + 3 ≤ d.met) (h2 : m + 3 ≤ d.age)
    (h3 : (k + 3) * (m + 3) ≤ d.joint) (h4 : (k + 3) * (m + 3) ≤ d.sed) (t s : Fin (n + 2) → ℝ) (lgmet σ : ℝ) (z : Fin (k + 3) → ℝ)
    (a : Fin (m + 3) → ℝ) (flux : Fin (k + 3) → Fin (m + 3) → Fin w → ℝ) (t_obs sfr_min : ℝ) :
    (Rounded.calc_rest_sed_sfh_table_lognormal_mdf A v d t s lgmet σ z a flux t_obs sfr_min).Nonempty :=
  ⟨_, _, (age_weights_nonempty hA hv h2 _ _ _ _ _).some_mem, _, (lgmet_weights_nonempty hA h1 _ _ _).some_mem,
    _, (ssp_weights_nonempty hA _ _ h3).some_mem, _, (mstar_obs_nonempty hA hv _ _ _ _).some_mem, (rest_sed_nonempty hA _ _ _ h4).some_mem⟩

lemma sed_met_table_nonempty [Dtype] (hA : ∀ x, (A.rnd x).Nonempty) (hv : 0 ≤ v) {d : Rounded.Depths} (h1 : k + 3 ≤ d.met) (h2 : m + 3 ≤ d.age)
    (h3 : (k + 3) * (m + 3) ≤ d.joint) (h4 : (k + 3) * (m + 3) ≤ d.sed) (t s zt : Fin (n + 2) → ℝ) (σ : ℝ) (z : Fin (k + 3) → ℝ)
    (a : Fin (m + 3) → ℝ) (flux : Fin (k + 3) → Fin (m + 3) → Fin w → ℝ) (t_obs sfr_min : ℝ) :
    (Rounded.calc_rest_sed_sfh_table_met_table A v d t s zt σ z a flux t_obs sfr_min).Nonempty :=
  ⟨_, _, (age_weights_nonempty hA hv h2 _ _ _ _ _).some_mem, _, (lgmet_table_weights_nonempty hA hv h1 _ _ _ _ _ _).some_mem,
    _, (ssp_weights_nonempty hA _ _ h3).some_mem, _, (mstar_obs_nonempty hA hv _ _ _ _).some_mem, (rest_sed_nonempty hA _ _ _ h4).some_mem⟩

/-- the ages of the example: 0.01, 1, 100 Gyr -/
noncomputable abbrev aEx : Fin 3 → ℝ := fun i => (-2:ℝ) + i * 2

/-- the hypotheses of C114 are met: constant star formation from 1 to 10 Gyr, observed at 10 Gyr -/
theorem float64SfhEx : @Float64Sfh 0 0 Dtype.float64 f64 (2 ^ (-50:ℤ)) tEx (fun _ => 1) aEx 10 1e-14 := by
  letI := Dtype.float64
  obtain ⟨b0, b1, b2⟩ := massEx_bounds
  have hu : f64.u ≤ 2 ^ (-53:ℤ) := by show ((1:ℝ) / 2) ^ 53 ≤ _; norm_num
  have hS : SFR_MIN = 1e-14 := rfl
  have edge0 : StellarAgeWeights.get_lg_age_bin_edges aEx 0 = -3 := by rw [lg_age_edges_eq, edges_zero]; norm_num [aEx]
  have edge3 : StellarAgeWeights.get_lg_age_bin_edges aEx (Fin.last 3) = 3 := by
    rw [lg_age_edges_eq, edges_last, C06_uniform (n := 0)]; norm_num [aEx]
  have hK := fun x y hx hy => C112_growth_rate conditionedEx (by norm_num) (x := x) (y := y) hx hy
  have hlast : massFormed tEx (fun _ => 1) 1e-14 (tEx (Fin.last 1)) = massFormed tEx (fun _ => 1) 1e-14 (tEx 1) := rfl
  have hpos : 0 < massFormed tEx (fun _ => 1) 1e-14 (tEx (Fin.last 1)) := massFormed_pos _
  have ht0 := tEx_zero
  refine ⟨hu, le_rfl, by norm_num, by norm_num, ⟨2, 20, by norm_num, le_rfl, conditionedEx⟩, ⟨2, 20, by norm_num, le_rfl, conditionedEx⟩, ?_,
    (C17_age_edges_mono aEx (mildlySpaced_uniform (-2) 2 (by norm_num))).monotone, ⟨_, hK, ?_⟩, ⟨by norm_num, by norm_num⟩, ?_⟩
  · intro i; fin_cases i <;> simp [aEx] <;> norm_num
  · rw [hS, ht0]; linarith
  · rw [hS]
    have c3 : birthTime 10 (StellarAgeWeights.get_lg_age_bin_edges aEx (Fin.last 3)) ≤ 1 := by
      rw [edge3]; unfold birthTime; norm_num
    have d3 := massFormed_before (t := tEx) (s := fun _ => 1) (sfr_min := 1e-14) (strictMono_pow10 2) (by rw [tEx_zero]; norm_num) (birthTime_pos 10 _)
      (c3.trans tEx_zero.ge)
    have c0 : birthTime 10 (StellarAgeWeights.get_lg_age_bin_edges aEx 0) = 10 - 1 / 1000 := by
      rw [edge0]; unfold birthTime; rw [Real.rpow_neg (by norm_num)]; norm_num
    have d0 := hK 10 (10 - 1 / 1000) (by norm_num) (by norm_num)
    rw [ht0, show |(10:ℝ) - (10 - 1 / 1000)| = 1 / 1000 by norm_num] at d0
    have d1 := (abs_le.1 d0).2
    have e10 : massFormed tEx (fun _ => 1) 1e-14 10 = massFormed tEx (fun _ => 1) 1e-14 (tEx 1) := by rw [tEx_one]
    rw [e10] at d1
    rw [d3, c0]
    rw [hlast] at hpos d1 ⊢
    generalize massFormed tEx (fun _ => 1) 1e-14 (tEx 0) = p at *
    generalize massFormed tEx (fun _ => 1) 1e-14 (tEx 1) = q at *
    generalize massFormed tEx (fun _ => 1) 1e-14 (10 - 1 / 1000) = r at *
    norm_num at b0 b1 b2 d1 ⊢
    linarith

/-- the end-to-end theorems apply to concrete machine computations of both kinds, in double precision with sequential sums -/
example (flux : Fin 3 → Fin 3 → Fin 5 → ℝ) (hF : ∀ i j l, |flux i j l| ≤ 1) : letI := Dtype.float64
    ∃ out out' : Fin 5 → ℝ,
      out ∈ Rounded.calc_rest_sed_sfh_table_lognormal_mdf f64 (2 ^ (-50:ℤ)) ⟨3, 3, 9, 9⟩ tEx (fun _ => 1) (-1.1) 0.2 zGrid aEx flux 10 1e-14 ∧
      out' ∈ Rounded.calc_rest_sed_sfh_table_met_table f64 (2 ^ (-50:ℤ)) ⟨3, 3, 9, 9⟩ tEx (fun _ => 1) (fun i => (-1.5:ℝ) + i) 0.2 zGrid aEx flux 10 1e-14 ∧
      ∀ l, |out l - (SspWeights.calc_rest_sed_sfh_table_lognormal_mdf tEx (fun _ => 1) (-1.1) 0.2 zGrid aEx flux 10 1e-14).rest_sed l| ≤
          1.3e-5 * (1 * SspWeights.mstar_obs tEx (fun _ => 1) 10 1e-14) ∧
        |out' l - (SspWeights.calc_rest_sed_sfh_table_met_table tEx (fun _ => 1) (fun i => (-1.5:ℝ) + i) 0.2 zGrid aEx flux 10 1e-14).rest_sed l| ≤
          1.3e-5 * (1 * SspWeights.mstar_obs tEx (fun _ => 1) 10 1e-14) := by
  letI := Dtype.float64
  have hA := binary_nonempty 53 (by norm_num)
  have hv : (0:ℝ) ≤ 2 ^ (-50:ℤ) := by positivity
  have hz : ∀ i, |zGrid i| ≤ 10 := fun i => (zGrid_le i).trans (by norm_num)
  obtain ⟨o, ho⟩ := sed_lognormal_nonempty (A := f64) (v := 2 ^ (-50:ℤ)) (k := 0) (m := 0) (n := 0) hA hv (d := ⟨3, 3, 9, 9⟩) (by norm_num)
    (by norm_num) (by norm_num) (by norm_num) tEx (fun _ => 1) (-1.1) 0.2 zGrid aEx flux 10 1e-14
  obtain ⟨o', ho'⟩ := sed_met_table_nonempty (A := f64) (v := 2 ^ (-50:ℤ)) (k := 0) (m := 0) (n := 0) hA hv (d := ⟨3, 3, 9, 9⟩) (by norm_num)
    (by norm_num) (by norm_num) (by norm_num) tEx (fun _ => 1) (fun i => (-1.5:ℝ) + i) 0.2 zGrid aEx flux 10 1e-14
  refine ⟨o, o', ho, ho', fun l => ⟨C114_sed_lognormal_float64 (k := 0) (m := 0) float64SfhEx (by norm_num) hz (by norm_num) zGrid_edges
    (by norm_num) (by norm_num) (by norm_num) (by norm_num) (by norm_num) (by norm_num) ho l (fun i j => hF i j l),
    C114_sed_met_table_float64 (k := 0) (m := 0) float64SfhEx (Lz := 1) (Z := 1.5) (by norm_num) (by norm_num) ?_ (by norm_num) ?_ (by norm_num) hz
    (by norm_num) zGrid_edges (by norm_num) (by norm_num) (by norm_num) (by norm_num) ho' l (fun i j => hF i j l)⟩⟩
  · intro i
    have e1 := log10_tEx i.succ
    have e2 := log10_tEx i.castSucc
    unfold log10 at e1 e2
    rw [e1, e2]
    fin_cases i
    norm_num
  · intro i; fin_cases i <;> norm_num

end Dsps.Props
