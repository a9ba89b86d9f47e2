import Verif.Props.RoundSed
import Verif.Props.Photometry

/-! C115: floating-point accuracy of a rest-frame magnitude, from the galaxy model to the filter. -/
namespace Dsps.Props
open Jnp Fl Dsps.Lemmas Dsps.Constants Spec

variable {A : Arith} {v : ℝ} {n m k p q : ℕ}

/-- C115: from an accurate spectrum to the magnitude: luminosities off by a fraction `ε`. -/
theorem C115_mag_of_spectrum [Dtype] {d : ℕ} {v lo L ε : ℝ} {ws ls ls0 : Fin (n + 2) → ℝ} {wv tr : Fin (m + 1) → ℝ} (hv : 0 ≤ v)
    (hws : Monotone ws) (hres : ∀ i : Fin (n + 1), Dtype.interpEps < (ws i.succ - ws i.castSucc) * (1 - A.u))
    (hlo0 : 0 < lo) (hlo : ∀ i, lo ≤ ls0 i) (hlsL : ∀ i, ls0 i ≤ L) (hε0 : 0 ≤ ε) (hε : ε < 1) (hls : ∀ i, |ls i - ls0 i| ≤ ε * ls0 i)
    (hw : Monotone wv) (hw0 : ∀ i, 0 < wv i)
    (ht : ∀ i, 0 ≤ tr i) (hcov : ∀ i, ws 0 ≤ wv i ∧ wv i ≤ ws (Fin.last (n + 1)))
    (hlive : 0 < Photometry.flux_ab0_at_10pc wv tr) {δ : ℝ} (hδe : ((1 / (1 - A.u)) ^ (2 * d + 20) - 1) * (L * (1 + ε) / (lo * (1 - ε))) = δ)
    (hδ : δ < 1) {r : ℝ} (hr : r ∈ Rounded.calc_rest_mag A v d ws ls wv tr) :
    |r - Photometry.calc_rest_mag ws ls0 wv tr| ≤
      ((1 + v) * (1 + A.u) - 1) * |Photometry.calc_rest_mag ws ls0 wv tr|
      + (1 + v) * (1 + A.u) * (2.5 * (-Jnp.log10 (1 - ε) - Jnp.log10 (1 - δ))) := by
  subst hδe
  have hu := A.u_nonneg
  have b1 : ∀ i, (1 - ε) * ls0 i ≤ ls i := fun i => by have := (abs_le.1 (hls i)).1; linarith
  have b2 : ∀ i, ls i ≤ (1 + ε) * ls0 i := fun i => by have := (abs_le.1 (hls i)).2; linarith
  have key := C99_mag (A := A) (d := d) (lo := lo * (1 - ε)) (L := L * (1 + ε)) hv hws hres (mul_pos hlo0 (by linarith))
    (fun i => by have := mul_le_mul_of_nonneg_right (hlo i) (show 0 ≤ 1 - ε by linarith); linarith [b1 i])
    (fun i => by have := mul_le_mul_of_nonneg_right (hlsL i) (show 0 ≤ 1 + ε by linarith); linarith [b2 i]) hw hw0 ht hcov hlive hδ hr
  have hF0 : 0 < Photometry.calc_rest_flux ws ls0 wv tr :=
    lt_of_lt_of_le (div_pos hlo0 AB0_pos) (flux_ge hws hlo hw hw0 ht hcov hlive)
  have scale : ∀ c, Photometry.calc_rest_flux ws (fun i => c * ls0 i) wv tr = c * Photometry.calc_rest_flux ws ls0 wv tr := fun c => by
    have := C42_additive ws ls0 ls0 wv tr c 0
    simpa using this
  have f1 : (1 - ε) * Photometry.calc_rest_flux ws ls0 wv tr ≤ Photometry.calc_rest_flux ws ls wv tr := by
    rw [← scale]; exact (C42_monotone hws ⟨hw, hw0, ht⟩ (z := 0) (by norm_num) b1 0 0 0 0).1
  have f2 : Photometry.calc_rest_flux ws ls wv tr ≤ (1 + ε) * Photometry.calc_rest_flux ws ls0 wv tr := by
    rw [← scale]; exact (C42_monotone hws ⟨hw, hw0, ht⟩ (z := 0) (by norm_num) b2 0 0 0 0).1
  obtain ⟨_, hlog⟩ := log10_close hF0 hε (f := Photometry.calc_rest_flux ws ls wv tr) (by rw [abs_le]; constructor <;> linarith)
  set κ := -Jnp.log10 (1 - ε)
  have hm : |Photometry.calc_rest_mag ws ls wv tr - Photometry.calc_rest_mag ws ls0 wv tr| ≤ 2.5 * κ := by
    simp only [Photometry.calc_rest_mag]
    rw [← mul_sub, abs_mul, show |(-2.5:ℝ)| = 2.5 by norm_num]
    exact mul_le_mul_of_nonneg_left hlog (by norm_num)
  have h1 := abs_sub_abs_le_abs_sub (Photometry.calc_rest_mag ws ls wv tr) (Photometry.calc_rest_mag ws ls0 wv tr)
  have h2 := abs_sub_le r (Photometry.calc_rest_mag ws ls wv tr) (Photometry.calc_rest_mag ws ls0 wv tr)
  have hc : 0 ≤ (1 + v) * (1 + A.u) - 1 := by nlinarith
  have h3 := mul_le_mul_of_nonneg_left (show |Photometry.calc_rest_mag ws ls wv tr| ≤ |Photometry.calc_rest_mag ws ls0 wv tr| + 2.5 * κ by linarith) hc
  generalize (1 + v) * (1 + A.u) = c at *
  generalize Jnp.log10 (1 - ((1 / (1 - A.u)) ^ (2 * d + 20) - 1) * (L * (1 + ε) / (lo * (1 - ε)))) = X at *
  linarith

lemma neg_log10_le {ε : ℝ} (h0 : 0 ≤ ε) (h : ε < 1) : -Jnp.log10 (1 - ε) ≤ ε / (1 - ε) / 2 := by
  have hq : 0 < 1 - ε := by linarith
  have hl : 2 ≤ Real.log 10 := by
    rw [Real.le_log_iff_exp_le (by norm_num), show (2:ℝ) = 1 + 1 by norm_num, Real.exp_add]
    have := Real.exp_one_lt_d9
    have h0 := Real.exp_pos 1
    nlinarith
  have h1 := Real.log_le_sub_one_of_pos (inv_pos.2 hq)
  rw [Real.log_inv] at h1
  have e : (1 - ε)⁻¹ - 1 = ε / (1 - ε) := by field_simp; ring
  rw [e] at h1
  unfold Jnp.log10 Real.logb
  have h2 : 0 ≤ -Real.log (1 - ε) := by
    have := Real.log_nonpos hq.le (by linarith); linarith
  rw [← neg_div]
  exact div_le_div₀ (by positivity) h1 (by norm_num) hl

/-- double precision: a spectrum accurate to `ε ≤ 0.013`, of dynamic range at most `10^6`, and sums of at most 5000 terms -/
lemma mag_float64 [Dtype] (hu : A.u ≤ 2 ^ (-53:ℤ)) (hv0 : 0 ≤ v) (hv : v ≤ 2 ^ (-50:ℤ)) {d : ℕ} (hd : d ≤ 5000) {lo L ε : ℝ}
    {ws ls ls0 : Fin (n + 2) → ℝ} {wv tr : Fin (m + 1) → ℝ} (hws : Monotone ws)
    (hres : ∀ i : Fin (n + 1), Dtype.interpEps < (ws i.succ - ws i.castSucc) * (1 - A.u)) (hlo0 : 0 < lo) (hlo : ∀ i, lo ≤ ls0 i)
    (hlsL : ∀ i, ls0 i ≤ L) (hrange : L ≤ 1e6 * lo) (hε0 : 0 ≤ ε) (hε : ε ≤ 0.013) (hls : ∀ i, |ls i - ls0 i| ≤ ε * ls0 i) (hw : Monotone wv)
    (hw0 : ∀ i, 0 < wv i) (ht : ∀ i, 0 ≤ tr i) (hcov : ∀ i, ws 0 ≤ wv i ∧ wv i ≤ ws (Fin.last (n + 1)))
    (hlive : 0 < Photometry.flux_ab0_at_10pc wv tr) {r : ℝ} (hr : r ∈ Rounded.calc_rest_mag A v d ws ls wv tr) :
    |r - Photometry.calc_rest_mag ws ls0 wv tr| ≤ 2e-15 * |Photometry.calc_rest_mag ws ls0 wv tr| + 1.28 * ε + 4e-6 := by
  have hu' : A.u ≤ 1.12e-16 := hu.trans (by norm_num)
  have hv' : v ≤ 9e-16 := hv.trans (by norm_num)
  have hu0 := A.u_nonneg
  have hγ := G_float64 hu (show 2 * d + 20 ≤ 10020 by omega) (by norm_num)
  have hγ0 := G_pow_nonneg A (2 * d + 20)
  push_cast at hγ
  have hε1 : ε < 1 := by norm_num at hε; linarith
  have hL0 : 0 ≤ L := hlo0.le.trans ((hlo 0).trans (hlsL 0))
  have hratio : L * (1 + ε) / (lo * (1 - ε)) ≤ 1.03e6 := by
    rw [div_le_iff₀ (mul_pos hlo0 (by linarith))]
    have a1 := mul_le_mul hrange (show 1 + ε ≤ 1.013 by norm_num at hε ⊢; linarith) (by linarith) (by positivity)
    have a2 := mul_le_mul_of_nonneg_left (show 0.987 ≤ 1 - ε by norm_num at hε ⊢; linarith) hlo0.le
    norm_num at a1 a2 ⊢; linarith
  have hratio0 : 0 ≤ L * (1 + ε) / (lo * (1 - ε)) := div_nonneg (by positivity) (mul_pos hlo0 (by linarith)).le
  set δ := ((1 / (1 - A.u)) ^ (2 * d + 20) - 1) * (L * (1 + ε) / (lo * (1 - ε))) with hδe
  have hδ : δ ≤ 2.4e-6 := (mul_le_mul hγ hratio hratio0 (by norm_num)).trans (by norm_num)
  have hδ0 : 0 ≤ δ := mul_nonneg hγ0 hratio0
  have key := C115_mag_of_spectrum hv0 hws hres hlo0 hlo hlsL hε0 hε1 hls hw hw0 ht hcov hlive hδe.symm (by norm_num at hδ; linarith) hr
  have l1 := neg_log10_le hε0 hε1
  have l2 := neg_log10_le hδ0 (by norm_num at hδ; linarith)
  have m1 : ε / (1 - ε) ≤ 1.0132 * ε := by
    rw [div_le_iff₀ (by linarith)]
    norm_num at hε ⊢
    nlinarith
  have m2 : δ / (1 - δ) ≤ 2.5e-6 := by
    rw [div_le_iff₀ (by norm_num at hδ; linarith)]
    norm_num at hδ ⊢; linarith
  have hc : (1 + v) * (1 + A.u) ≤ 1 + 2e-15 := by
    have := mul_le_mul (show 1 + v ≤ 1 + 9e-16 by linarith) (show 1 + A.u ≤ 1 + 1.12e-16 by linarith) (by linarith) (by norm_num)
    norm_num at this ⊢; linarith
  have hX : 2.5 * (-Jnp.log10 (1 - ε) - Jnp.log10 (1 - δ)) ≤ 1.27 * ε + 3.2e-6 := by norm_num at l1 l2 m1 m2 ⊢; linarith
  have hX0 : 0 ≤ 2.5 * (-Jnp.log10 (1 - ε) - Jnp.log10 (1 - δ)) := by
    have h1 : Jnp.log10 (1 - ε) ≤ 0 := Real.logb_nonpos (by norm_num) (by linarith) (by linarith)
    have h2 : Jnp.log10 (1 - δ) ≤ 0 := Real.logb_nonpos (by norm_num) (by norm_num at hδ; linarith) (by linarith)
    exact mul_nonneg (by norm_num) (by linarith)
  have h1 := mul_le_mul_of_nonneg_right (show (1 + v) * (1 + A.u) - 1 ≤ 2e-15 by linarith) (abs_nonneg (Photometry.calc_rest_mag ws ls0 wv tr))
  have h2 := mul_le_mul hc hX hX0 (by norm_num)
  norm_num at h1 h2 key hε ⊢; linarith

section
variable [Dtype] {t s : Fin (n + 2) → ℝ} {sfr_min : ℝ}

/-- **Conditions for double precision** on the SSP library, the wavelength grid and the filter: at each wavelength the SSP fluxes lie between
`lo > 0` and `R lo`, with `R ≤ 1000`; over all wavelengths they span at most six decades; the wavelengths increase in steps above JAX's
interpolation threshold; the filter is increasing, non-negative, live, and covered by the spectrum. -/
structure Float64Phot [Dtype] (A : Arith) (flux : Fin (k + 3) → Fin (m + 3) → Fin (p + 2) → ℝ) (R : ℝ) (ws : Fin (p + 2) → ℝ)
    (wv tr : Fin (q + 1) → ℝ) : Prop where
  ssp : ∃ lo : Fin (p + 2) → ℝ, (∀ l, 0 < lo l) ∧ (∀ i j l, lo l ≤ flux i j l ∧ flux i j l ≤ R * lo l) ∧ ∀ l l', R * lo l ≤ 1e6 * lo l'
  contrast : R ≤ 1000
  wave : Monotone ws
  gaps : ∀ i : Fin (p + 1), Dtype.interpEps < (ws i.succ - ws i.castSucc) * (1 - A.u)
  filter : GoodFilter wv tr
  live : 0 < Photometry.flux_ab0_at_10pc wv tr
  covered : ∀ i, ws 0 ≤ wv i ∧ wv i ≤ ws (Fin.last (p + 1))

/-- from an SED accurate to 1.3e-5 of the brightest SSP to the magnitude -/
lemma mag_of_sed (hu : A.u ≤ 2 ^ (-53:ℤ)) (hv0 : 0 ≤ v) (hv : v ≤ 2 ^ (-50:ℤ)) {flux : Fin (k + 3) → Fin (m + 3) → Fin (p + 2) → ℝ} {R : ℝ}
    {ws : Fin (p + 2) → ℝ} {wv tr : Fin (q + 1) → ℝ} (hp : Float64Phot A flux R ws wv tr) {d : ℕ} (hd : d ≤ 5000) {M : ℝ} (hM : 0 < M)
    {sed sed0 : Fin (p + 2) → ℝ} (hbet : ∀ l lo hi, (∀ i j, lo ≤ flux i j l) → (∀ i j, flux i j l ≤ hi) → M * lo ≤ sed0 l ∧ sed0 l ≤ M * hi)
    (herr : ∀ l F, (∀ i j, |flux i j l| ≤ F) → |sed l - sed0 l| ≤ 1.3e-5 * (F * M)) {r : ℝ}
    (hr : r ∈ Rounded.calc_rest_mag A v d ws sed wv tr) :
    |r - Photometry.calc_rest_mag ws sed0 wv tr| ≤ 2e-15 * |Photometry.calc_rest_mag ws sed0 wv tr| + 1.7e-5 * R + 4e-6 := by
  obtain ⟨lo, hlo0, hflux, hdyn⟩ := hp.ssp
  have hR1 : 1 ≤ R := by
    have h1 := (hflux 0 0 0).1.trans (hflux 0 0 0).2
    have h2 := hlo0 0
    by_contra hc; push Not at hc; nlinarith
  have hR := hp.contrast
  have hb : ∀ l, M * lo l ≤ sed0 l ∧ sed0 l ≤ M * (R * lo l) := fun l =>
    hbet l _ _ (fun i j => (hflux i j l).1) (fun i j => (hflux i j l).2)
  obtain ⟨l0, -, hl0⟩ := Finset.exists_min_image Finset.univ lo Finset.univ_nonempty
  have hrel : ∀ l, |sed l - sed0 l| ≤ (1.3e-5 * R) * sed0 l := fun l => by
    have h1 := herr l (R * lo l) (fun i j => by rw [abs_of_nonneg ((hlo0 l).le.trans (hflux i j l).1)]; exact (hflux i j l).2)
    have h2 := mul_le_mul_of_nonneg_left (hb l).1 (show 0 ≤ R by linarith)
    norm_num at h1 ⊢
    linarith
  have key := mag_float64 hu hv0 hv hd hp.wave hp.gaps (mul_pos hM (hlo0 l0))
    (fun l => (mul_le_mul_of_nonneg_left (hl0 l (Finset.mem_univ _)) hM.le).trans (hb l).1)
    (fun l => (hb l).2.trans (mul_le_mul_of_nonneg_left (hdyn l l0) hM.le)) (by rw [mul_left_comm])
    (ε := 1.3e-5 * R) (by positivity) (by norm_num; linarith) hrel hp.filter.1 hp.filter.2.1 hp.filter.2.2 hp.covered hp.live hr
  refine key.trans ?_
  norm_num; linarith

/-- C115: **end to end, double precision**: from the galaxy model to the rest-frame magnitude.  The SED is computed by
`calc_rest_sed_sfh_table_lognormal_mdf` and passed to `calc_rest_mag`, everything in machine arithmetic with sums in any order.  The computed
magnitude is within `2e-15 |mag| + 1.7e-5 R + 4e-6` of the exact one, where `R` is the largest ratio between two SSPs at one wavelength. -/
theorem C115_mag_lognormal {a : Fin (m + 3) → ℝ} {t_obs : ℝ} (h : Float64Sfh A v t s a t_obs sfr_min) {lgmet σ : ℝ}
    {z : Fin (k + 3) → ℝ} (hσ : 0.01 ≤ σ) (hz : ∀ i, |z i| ≤ 10) (hk : k + 3 ≤ 100) (he : Monotone (Utils.get_bin_edges z (-10) 10))
    (hlo : -10 ≤ lgmet - 3 * σ) (hhi : lgmet + 3 * σ ≤ 10) {flux : Fin (k + 3) → Fin (m + 3) → Fin (p + 2) → ℝ} {R : ℝ}
    {ws : Fin (p + 2) → ℝ} {wv tr : Fin (q + 1) → ℝ} (hp : Float64Phot A flux R ws wv tr) {d : Rounded.Depths} (hd1 : d.met ≤ 1000)
    (hd2 : d.age ≤ 1000) (hd3 : d.joint ≤ 10000) (hd4 : d.sed ≤ 9999) {d' : ℕ} (hd5 : d' ≤ 5000) {sed : Fin (p + 2) → ℝ}
    (ho : sed ∈ Rounded.calc_rest_sed_sfh_table_lognormal_mdf A v d t s lgmet σ z a flux t_obs sfr_min) {r : ℝ}
    (hr : r ∈ Rounded.calc_rest_mag A v d' ws sed wv tr) :
    let mag := Photometry.calc_rest_mag ws
      (SspWeights.calc_rest_sed_sfh_table_lognormal_mdf t s lgmet σ z a flux t_obs sfr_min).rest_sed wv tr
    |r - mag| ≤ 2e-15 * |mag| + 1.7e-5 * R + 4e-6 := by
  intro mag
  obtain ⟨_, _, _, _, hc⟩ := h.weights
  have hσ0 : 0 < σ := lt_of_lt_of_le (by norm_num) hσ
  have hM : 0 < massFormed t s sfr_min t_obs := massFormed_pos _
  have e : SspWeights.mstar_obs t s t_obs sfr_min = massFormed t s sfr_min t_obs := by rw [massFormed_eq]; rfl
  have hW := (C23_joint_weights_lognormal t s lgmet σ z a t_obs h.age_prob (C21_lgmet_weights_prob_partial lgmet σ hσ0 z he)).2.2.2.1
  refine mag_of_sed h.u_le hc.v_nonneg h.v_le hp hd5 hM (fun l lo hi h1 h2 =>
    (C25_sed_between t s (fun _ => 0) lgmet σ z a flux t_obs sfr_min l lo hi h1 h2).1 hW) (fun l F hF => ?_) hr
  rw [← e]
  exact C114_sed_lognormal_float64 h hσ hz hk he hlo hhi hd1 hd2 hd3 hd4 ho l hF

/-- C115: the same for a tabulated metallicity history. -/
theorem C115_mag_met_table {a : Fin (m + 3) → ℝ} {t_obs : ℝ} (h : Float64Sfh A v t s a t_obs sfr_min) {σ Lz Z : ℝ}
    {zt : Fin (n + 2) → ℝ} (hL0 : 0 ≤ Lz) (hL : Lz ≤ 2)
    (hslope : ∀ i : Fin (n + 1), |zt i.succ - zt i.castSucc| ≤ Lz * (Real.logb 10 (t i.succ) - Real.logb 10 (t i.castSucc)))
    {z : Fin (k + 3) → ℝ} (hσ : 0.05 ≤ σ) (hZ : ∀ i, |zt i| ≤ Z) (hwin : Z + 3 * σ ≤ 10) (hz : ∀ i, |z i| ≤ 10) (hk : k + 3 ≤ 50)
    (he : Monotone (Utils.get_bin_edges z (-10) 10)) {flux : Fin (k + 3) → Fin (m + 3) → Fin (p + 2) → ℝ} {R : ℝ}
    {ws : Fin (p + 2) → ℝ} {wv tr : Fin (q + 1) → ℝ} (hp : Float64Phot A flux R ws wv tr) {d : Rounded.Depths} (hd1 : d.met ≤ 1000)
    (hd2 : d.age ≤ 1000) (hd3 : d.joint ≤ 10000) (hd4 : d.sed ≤ 9999) {d' : ℕ} (hd5 : d' ≤ 5000) {sed : Fin (p + 2) → ℝ}
    (ho : sed ∈ Rounded.calc_rest_sed_sfh_table_met_table A v d t s zt σ z a flux t_obs sfr_min) {r : ℝ}
    (hr : r ∈ Rounded.calc_rest_mag A v d' ws sed wv tr) :
    let mag := Photometry.calc_rest_mag ws
      (SspWeights.calc_rest_sed_sfh_table_met_table t s zt σ z a flux t_obs sfr_min).rest_sed wv tr
    |r - mag| ≤ 2e-15 * |mag| + 1.7e-5 * R + 4e-6 := by
  intro mag
  obtain ⟨_, _, _, _, hc⟩ := h.weights
  have hσ0 : 0 < σ := lt_of_lt_of_le (by norm_num) hσ
  have hM : 0 < massFormed t s sfr_min t_obs := massFormed_pos _
  have e : SspWeights.mstar_obs t s t_obs sfr_min = massFormed t s sfr_min t_obs := by rw [massFormed_eq]; rfl
  have hW := (C24_joint_weights_met_table t s zt σ hσ0 z a t_obs he h.age_prob).2.1
  refine mag_of_sed h.u_le hc.v_nonneg h.v_le hp hd5 hM (fun l lo hi h1 h2 =>
    (C25_sed_between t s zt 0 σ z a flux t_obs sfr_min l lo hi h1 h2).2 hW) (fun l F hF => ?_) hr
  rw [← e]
  exact C114_sed_met_table_float64 h hL0 hL hslope hσ hZ hwin hz hk he hd1 hd2 hd3 hd4 ho l hF

end

/-- the hypotheses on the SSP library and the filter are met: three wavelengths, a four-point filter, SSP fluxes between 1 and 2 -/
theorem float64PhotEx : @Float64Phot 0 0 1 3 Dtype.float64 f64 (fun i j _ => 1 + (i * j : ℕ) / 4) 2 ![1000, 5000, 10000] ![4000, 5000, 6000, 7000]
    ![0, 1, 1, 0] := by
  letI := Dtype.float64
  have hu : f64.u = (1 / 2) ^ 53 := rfl
  refine ⟨⟨fun _ => 1, fun _ => one_pos, fun i j l => ⟨?_, ?_⟩, fun _ _ => by norm_num⟩, by norm_num, ?_, ?_, ⟨?_, ?_, ?_⟩, ?_, ?_⟩
  · have : (0:ℝ) ≤ ((i * j : ℕ):ℝ) / 4 := by positivity
    show (1:ℝ) ≤ 1 + ((i * j : ℕ):ℝ) / 4
    linarith
  · fin_cases i <;> fin_cases j <;> norm_num
  · rw [Fin.monotone_iff_le_succ]; intro i; fin_cases i <;> simp <;> norm_num
  · intro i; rw [hu]; show (2:ℝ)⁻¹ ^ 104 < _; fin_cases i <;> simp <;> norm_num
  · rw [Fin.monotone_iff_le_succ]; intro i; fin_cases i <;> simp <;> norm_num
  · intro i; fin_cases i <;> simp
  · intro i; fin_cases i <;> simp
  · simp only [Photometry.flux_ab0_at_10pc, Photometry.AB0]
    rw [trapz_eq]; simp [Fin.sum_univ_succ]; norm_num
  · intro i; fin_cases i <;> simp <;> norm_num

/-- the end-to-end theorem applies to a concrete machine computation: galaxy model to magnitude, in double precision -/
example : letI := Dtype.float64
    let flux : Fin 3 → Fin 3 → Fin 3 → ℝ := fun i j _ => 1 + (i * j : ℕ) / 4
    let mag := Photometry.calc_rest_mag ![1000, 5000, 10000]
      (SspWeights.calc_rest_sed_sfh_table_lognormal_mdf tEx (fun _ => 1) (-1.1) 0.2 zGrid aEx flux 10 1e-14).rest_sed ![4000, 5000, 6000, 7000]
      ![0, 1, 1, 0]
    ∃ (sed : Fin 3 → ℝ) (r : ℝ),
      sed ∈ Rounded.calc_rest_sed_sfh_table_lognormal_mdf f64 (2 ^ (-50:ℤ)) ⟨3, 3, 9, 9⟩ tEx (fun _ => 1) (-1.1) 0.2 zGrid aEx flux 10 1e-14 ∧
      r ∈ Rounded.calc_rest_mag f64 (2 ^ (-50:ℤ)) 3 ![1000, 5000, 10000] sed ![4000, 5000, 6000, 7000] ![0, 1, 1, 0] ∧
      |r - mag| ≤ 2e-15 * |mag| + 1.7e-5 * 2 + 4e-6 := by
  letI := Dtype.float64
  intro flux mag
  have hA := binary_nonempty 53 (by norm_num)
  have hv : (0:ℝ) ≤ 2 ^ (-50:ℤ) := by positivity
  have hz : ∀ i, |zGrid i| ≤ 10 := fun i => (zGrid_le i).trans (by norm_num)
  obtain ⟨o, ho⟩ := sed_lognormal_nonempty (A := f64) (v := 2 ^ (-50:ℤ)) (k := 0) (m := 0) (n := 0) hA hv (d := ⟨3, 3, 9, 9⟩) (by norm_num)
    (by norm_num) (by norm_num) (by norm_num) tEx (fun _ => 1) (-1.1) 0.2 zGrid aEx flux 10 1e-14
  obtain ⟨f, hf⟩ := rest_flux_nonempty (n := 1) (m := 3) hA ![1000, 5000, 10000] o ![4000, 5000, 6000, 7000] ![0, 1, 1, 0] (d := 3) le_rfl
  obtain ⟨r, hr⟩ := hA (-2.5 * Jnp.log10 f)
  have hr' : r ∈ Rounded.calc_rest_mag f64 (2 ^ (-50:ℤ)) 3 ![1000, 5000, 10000] o ![4000, 5000, 6000, 7000] ![0, 1, 1, 0] :=
    ⟨f, hf, Jnp.log10 f, by rw [sub_self, abs_zero]; positivity, hr⟩
  exact ⟨o, r, ho, hr', C115_mag_lognormal float64SfhEx (by norm_num) hz (by norm_num) zGrid_edges (by norm_num) (by norm_num) float64PhotEx
    (by norm_num) (by norm_num) (by norm_num) (by norm_num) (by norm_num) ho hr'⟩

end Dsps.Props
