import Verif.Props.HistoryMet
import Verif.Props.Burst

/-! C166, C168, continued: galaxies with bursts (`/repo/dsps/sfh/diffburst.py`). -/
namespace Dsps.Props
open Dsps.Utils Dsps.Lemmas Dsps.Photometry Dsps.Constants Dsps.StellarAgeWeights Dsps.SspWeights Dsps.Diffburst Jnp Spec Set
open Dsps.MetallicityWeights (calc_lgmet_weights_from_lognormal_mdf)
open scoped BigOperators

variable {n m k w : ℕ} {S : ℝ → ℝ} {t₀ T t_obs gal_lgmet scatter sfr_min : ℝ} {g : Fin (m + 3) → ℝ} {y : Fin (k + 3) → ℝ} {p : BurstParams}

/-- **Specification.** age weights of a burst alone -/
noncomputable def Sfh.burst (p : BurstParams) (g : Fin (m + 3) → ℝ) (j : Fin (m + 3)) : ℝ := calc_bursty_age_weights { p with lgfburst := 0 } (fun _ => 0) g j

lemma bursty_split (A g : Fin (m + 3) → ℝ) (j : Fin (m + 3)) :
    calc_bursty_age_weights p A g j = (10:ℝ) ^ p.lgfburst * Sfh.burst p g j + (1 - (10:ℝ) ^ p.lgfburst) * A j := by
  simp [calc_bursty_age_weights, Sfh.burst, Jnp.exp10]

lemma burst_prob (hp : p.lgyr_peak < p.lgyr_max) (hmeet : ∃ i, g i + 9 ∈ BurstSupport p.lgyr_peak p.lgyr_max) : IsProbVector (Sfh.burst p g) := by
  have e9 : (9.0:ℝ) = 9 := by norm_num
  have h := C29_pureburst_weights (fun i => g i + 9) p.lgyr_peak p.lgyr_max hp
  have e : ∀ j, Sfh.burst p g j = pureburst_age_weights_from_params (fun i => g i + 9) p.lgyr_peak p.lgyr_max j := fun j => by
    simp [calc_bursty_age_weights, Sfh.burst, Jnp.exp10, e9]
  refine ⟨fun j => (h.1 j).trans_eq (e j).symm, ?_⟩
  simp only [e]
  rw [h.2.2.2, if_pos hmeet]

lemma fb_mem (hf : p.lgfburst ≤ 0) : (10:ℝ) ^ p.lgfburst ∈ Ioc (0:ℝ) 1 :=
  ⟨Real.rpow_pos_of_pos (by norm_num) _, Real.rpow_le_one_of_one_le_of_nonpos (by norm_num) hf⟩

/-- C166: **bursts.** The age weights of a galaxy with a burst on top of a smooth history given as a table have an error of second order in the time steps, too. -/
theorem C166_bursty (hf : p.lgfburst ≤ 0) (hs : 0 < sfr_min) (h0 : 0.001 < t₀) (hT : t₀ < T) (hS : ContDiffOn ℝ 2 S (Icc t₀ T))
    (hp : ∀ x ∈ Icc t₀ T, sfr_min ≤ S x) (hobs0 : 0.001 ≤ t_obs) (hobs : t_obs ≤ T) (he : Monotone (get_lg_age_bin_edges g))
    (hpos : Sfh.massFrom S t₀ (birthTime t_obs (get_lg_age_bin_edges g (Fin.last (m + 3)))) < Sfh.massFrom S t₀ (birthTime t_obs (get_lg_age_bin_edges g 0))) :
    ∃ C δ₀, 0 < δ₀ ∧ ∀ [Dtype], ∀ δ ≤ δ₀, ∀ t ∈ Sfh.Table t₀ T δ, ∀ i, let e := get_lg_age_bin_edges g
      |calc_bursty_age_weights p (calc_age_weights_from_sfh_table t.2 (fun i => S (t.2 i)) g t_obs sfr_min) g i -
        ((10:ℝ) ^ p.lgfburst * Sfh.burst p g i + (1 - (10:ℝ) ^ p.lgfburst) * Sfh.shareFrom S t₀ t_obs (e i.castSucc) (e i.succ) (e 0) (e (Fin.last (m + 3))))| ≤
        (1 - (10:ℝ) ^ p.lgfburst) * (C * δ ^ 2) := by
  obtain ⟨C, d, hd, h⟩ := C166_age_weights (g := g) (t_obs := t_obs) hs h0 hT hS hp hobs0 hobs he hpos
  refine ⟨C, d, hd, fun [Dtype] δ hδ t ht i => ?_⟩
  have h1 := h δ hδ t ht i
  have hb := (fb_mem hf).2
  intro e
  rw [bursty_split, add_sub_add_left_eq_sub, ← mul_sub, abs_mul, abs_of_nonneg (sub_nonneg.mpr hb)]
  exact mul_le_mul_of_nonneg_left h1 (sub_nonneg.mpr hb)

section time
variable [Dtype] {t s : Fin (n + 2) → ℝ} {a : Fin (m + 3) → ℝ} {t_obs' : ℝ}

/-- C167: **bursts.** The age weights of a bursty galaxy depend on the observation time of its smooth part with a constant smaller by the smooth part's share. -/
theorem C167_bursty {B F : ℝ} (hf : p.lgfburst ≤ 0) (hs : 0 < sfr_min) (ht : StrictMono t) (ht0 : 0.001 < t 0) (hr : Resolved fun i => log10 (t i)) (hB : ∀ i, max sfr_min (s i) ≤ B)
    (hF : ∀ k : Fin (n + 1), t k.succ ≤ F * t k.castSucc ∧ 1 + Real.log (tableMass t s sfr_min k.succ / tableMass t s sfr_min k.castSucc) ≤ F)
    (he : Monotone (get_lg_age_bin_edges a)) (i : Fin (m + 3)) :
    let D := massFormed t s sfr_min (birthTime t_obs (get_lg_age_bin_edges a 0)) - massFormed t s sfr_min (birthTime t_obs (get_lg_age_bin_edges a (Fin.last (m + 3))))
    0 < D → |calc_bursty_age_weights p (calc_age_weights_from_sfh_table t s a t_obs' sfr_min) a i - calc_bursty_age_weights p (calc_age_weights_from_sfh_table t s a t_obs sfr_min) a i| ≤
      (1 - (10:ℝ) ^ p.lgfburst) * (4 * (1e9 * B * F * |t_obs' - t_obs|) / D) := by
  intro D hD
  have hb := (fb_mem hf).2
  rw [bursty_split, bursty_split, add_sub_add_left_eq_sub, ← mul_sub, abs_mul, abs_of_nonneg (sub_nonneg.mpr hb)]
  exact mul_le_mul_of_nonneg_left (C167_age_weights_lipschitz (t_obs := t_obs) (t_obs' := t_obs') hs ht ht0 hr hB hF he i hD) (sub_nonneg.mpr hb)

/-- **Specification.** SED of a galaxy with bursty age weights: mass formed times the SSP spectra weighted by metallicity and by `calc_bursty_age_weights` -/
noncomputable def burstySed (p : BurstParams) (t s : Fin (n + 2) → ℝ) (gal_lgmet scatter : ℝ) (y : Fin (k + 3) → ℝ) (a : Fin (m + 3) → ℝ) (flux : Fin (k + 3) → Fin (m + 3) → Fin w → ℝ)
    (t_obs : ℝ) (l : Fin w) : ℝ :=
  massFormed t s 1e-14 t_obs * ∑ i, ∑ j, calc_lgmet_weights_from_lognormal_mdf gal_lgmet scatter y i *
    calc_bursty_age_weights p (calc_age_weights_from_sfh_table t s a t_obs) a j * flux i j l

/-- light of the SSPs, part of it replaced by the light of the burst -/
noncomputable def withBurst (p : BurstParams) (a : Fin (m + 3) → ℝ) (flux : Fin (k + 3) → Fin (m + 3) → Fin w → ℝ) (i : Fin (k + 3)) (j : Fin (m + 3)) (l : Fin w) : ℝ :=
  (10:ℝ) ^ p.lgfburst * ∑ j', Sfh.burst p a j' * flux i j' l + (1 - (10:ℝ) ^ p.lgfburst) * flux i j l

/-- a bursty galaxy is a smooth one whose SSPs contain the burst's light -/
lemma bursty_as_smooth {flux : Fin (k + 3) → Fin (m + 3) → Fin w → ℝ} (ht : StrictMono t) (ht0 : 0.001 < t 0) (he : Monotone (get_lg_age_bin_edges a)) (hd : 0 < massInRange t s a t_obs)
    (hZ : ∑ i, calc_lgmet_weights_from_lognormal_mdf gal_lgmet scatter y i = 1) :
    burstySed p t s gal_lgmet scatter y a flux t_obs = (calc_rest_sed_sfh_table_lognormal_mdf t s gal_lgmet scatter y a (withBurst p a flux) t_obs).rest_sed := by
  funext l
  have hA := (ages_prob ht ht0 he hd).2
  rw [sed_value hZ hA]
  unfold burstySed
  congr 1
  refine Finset.sum_congr rfl fun i _ => ?_
  simp only [mul_assoc, ← Finset.mul_sum]
  congr 1
  simp only [bursty_split, withBurst, add_mul, mul_add, Finset.sum_add_distrib]
  rw [← Finset.sum_mul, hA, one_mul, Finset.mul_sum]
  congr 1
  · exact Finset.sum_congr rfl fun j _ => by ring
  · exact Finset.sum_congr rfl fun j _ => by ring

omit [Dtype] in
lemma withBurst_bounds {flux : Fin (k + 3) → Fin (m + 3) → Fin w → ℝ} {R : ℝ} (hf : p.lgfburst ≤ 0) (hb : IsProbVector (Sfh.burst p a))
    (hx : ∀ i j l, 0 < flux i j l) (hR : ∀ i j i' j' l, flux i j l ≤ R * flux i' j' l) :
    (∀ i j l, 0 < withBurst p a flux i j l) ∧ ∀ i j i' j' l, withBurst p a flux i j l ≤ R * withBurst p a flux i' j' l := by
  have f1 := (fb_mem hf).1
  have f2 := (fb_mem hf).2
  have hm : ∀ (v : Fin (m + 3) → ℝ) (c : ℝ), (∀ j, v j ≤ c) → ∑ j, Sfh.burst p a j * v j ≤ c := fun v c h =>
    calc ∑ j, Sfh.burst p a j * v j ≤ ∑ j, Sfh.burst p a j * c := Finset.sum_le_sum fun j _ => mul_le_mul_of_nonneg_left (h j) (hb.1 j)
      _ = c := by rw [← Finset.sum_mul, hb.2, one_mul]
  have hM : ∀ (v : Fin (m + 3) → ℝ) (c : ℝ), (∀ j, c ≤ v j) → c ≤ ∑ j, Sfh.burst p a j * v j := fun v c h =>
    calc c = ∑ j, Sfh.burst p a j * c := by rw [← Finset.sum_mul, hb.2, one_mul]
      _ ≤ ∑ j, Sfh.burst p a j * v j := Finset.sum_le_sum fun j _ => mul_le_mul_of_nonneg_left (h j) (hb.1 j)
  have up : ∀ i j l c, (∀ j, flux i j l ≤ c) → withBurst p a flux i j l ≤ c := fun i j l c h => by
    unfold withBurst
    have h1 := mul_le_mul_of_nonneg_left (hm _ c h) f1.le
    have h2 := mul_le_mul_of_nonneg_left (h j) (sub_nonneg.mpr f2)
    linarith
  have dn : ∀ i j l c, (∀ j, c ≤ flux i j l) → c ≤ withBurst p a flux i j l := fun i j l c h => by
    unfold withBurst
    have h1 := mul_le_mul_of_nonneg_left (hM _ c h) f1.le
    have h2 := mul_le_mul_of_nonneg_left (h j) (sub_nonneg.mpr f2)
    linarith
  constructor
  · intro i j l
    obtain ⟨j₀, -, hj⟩ := Finset.exists_min_image (Finset.univ : Finset (Fin (m + 3))) (fun j => flux i j l) ⟨0, Finset.mem_univ _⟩
    exact (hx i j₀ l).trans_le (dn i j l _ fun j => hj j (Finset.mem_univ _))
  · intro i j i' j' l
    obtain ⟨j₀, -, hj⟩ := Finset.exists_min_image (Finset.univ : Finset (Fin (m + 3))) (fun j => flux i' j l) ⟨0, Finset.mem_univ _⟩
    have hR0 : 0 ≤ R := by
      have h1 := hR 0 0 0 0 l
      have h2 := hx 0 0 l
      by_contra hc
      nlinarith
    exact (up i j l _ fun j => hR i j i' j₀ l).trans (mul_le_mul_of_nonneg_left (dn i' j' l _ fun j => hj j (Finset.mem_univ _)) hR0)

/-- C168: **bursty galaxies.** The magnitudes of a galaxy with a burst depend on the observation time of its smooth history with at most the constant of a galaxy without one. -/
theorem C168_observation_time_bursty {B F R d z Om0 w0 wa h : ℝ} {q : ℕ} {wave : Fin (w + 2) → ℝ} {flux : Fin (k + 3) → Fin (m + 3) → Fin (w + 2) → ℝ} {fw ft : Fin (q + 1) → ℝ}
    (hf0 : p.lgfburst ≤ 0) (hp : p.lgyr_peak < p.lgyr_max) (hmeet : ∃ i, a i + 9 ∈ BurstSupport p.lgyr_peak p.lgyr_max)
    (ht : StrictMono t) (ht0 : 0.001 < t 0) (hr : Resolved fun i => log10 (t i)) (hB : ∀ i, max 1e-14 (s i) ≤ B)
    (hF : ∀ k : Fin (n + 1), t k.succ ≤ F * t k.castSucc ∧ 1 + Real.log (tableMass t s 1e-14 k.succ / tableMass t s 1e-14 k.castSucc) ≤ F)
    (he : Monotone (get_lg_age_bin_edges a)) (hZ : IsProbVector (calc_lgmet_weights_from_lognormal_mdf gal_lgmet scatter y))
    (hx : ∀ i j l, 0 < flux i j l) (hR : ∀ i j i' j' l, flux i j l ≤ R * flux i' j' l) (h0 : 0.001 ≤ t_obs) (h0' : 0.001 ≤ t_obs') (hd : 0 < d)
    (hD : d ≤ massInRange t s a t_obs) (hD' : d ≤ massInRange t s a t_obs') (hw : Monotone wave) (hf : GoodFilter fw ft) (hz : -1 < z) :
    let sed := fun t_obs => burstySed p t s gal_lgmet scatter y a flux t_obs
    0 < obs_flux_ssp wave (sed t_obs) fw ft z / flux_ab0_at_10pc fw ft →
    |calc_obs_mag wave (sed t_obs') fw ft z Om0 w0 wa h - calc_obs_mag wave (sed t_obs) fw ft z Om0 w0 wa h| ≤
      1.09 * ((4 * m + 13) * R * (1e9 * B * F * |t_obs' - t_obs|) / d) := by
  intro sed hpos
  simp only [sed, bursty_as_smooth ht ht0 he (hd.trans_le hD) hZ.2, bursty_as_smooth ht ht0 he (hd.trans_le hD') hZ.2] at hpos ⊢
  obtain ⟨b1, b2⟩ := withBurst_bounds (flux := flux) hf0 (burst_prob hp hmeet) hx hR
  exact C168_observation_time ht ht0 hr hB hF he hZ b1 b2 h0 h0' hd hD hD' hw hf hz hpos
end time

/-- C168: **bursty galaxies.** The magnitudes of a galaxy with a burst on top of a smooth star formation history are second-order accurate in the time steps of its table. -/
theorem C168_history_bursty {wave : Fin (w + 2) → ℝ} {flux : Fin (k + 3) → Fin (m + 3) → Fin (w + 2) → ℝ} (hf0 : p.lgfburst ≤ 0) (hpk : p.lgyr_peak < p.lgyr_max)
    (hmeet : ∃ i, g i + 9 ∈ BurstSupport p.lgyr_peak p.lgyr_max) (h0 : 0.001 < t₀) (hT : t₀ < T) (hS : ContDiffOn ℝ 2 S (Icc t₀ T))
    (hp : ∀ x ∈ Icc t₀ T, 1e-14 ≤ S x) (ha : MildlySpaced g) (hyoung : t₀ < t_obs - (10:ℝ) ^ get_lg_age_bin_edges g 0) (hobs : t_obs ≤ T)
    (hZ : IsProbVector (calc_lgmet_weights_from_lognormal_mdf gal_lgmet scatter y)) (hx : ∀ i j l, 0 < flux i j l) (hw : Monotone wave) :
    let e := get_lg_age_bin_edges g
    let exact := fun l => Sfh.massFrom S t₀ t_obs * ∑ i, ∑ j, calc_lgmet_weights_from_lognormal_mdf gal_lgmet scatter y i *
      ((10:ℝ) ^ p.lgfburst * Sfh.burst p g j + (1 - (10:ℝ) ^ p.lgfburst) * Sfh.shareFrom S t₀ t_obs (e j.castSucc) (e j.succ) (e 0) (e (Fin.last (m + 3)))) * flux i j l
    ∃ C δ₀, 0 < δ₀ ∧ ∀ [Dtype], ∀ δ ≤ δ₀, ∀ t ∈ Sfh.Table t₀ T δ, ∀ {q : ℕ} (fw ft : Fin (q + 1) → ℝ) (z Om0 w0 wa h : ℝ), GoodFilter fw ft → -1 < z →
      0 < obs_flux_ssp wave exact fw ft z / flux_ab0_at_10pc fw ft →
      |calc_obs_mag wave (burstySed p t.2 (fun i => S (t.2 i)) gal_lgmet scatter y g flux t_obs) fw ft z Om0 w0 wa h - calc_obs_mag wave exact fw ft z Om0 w0 wa h| ≤ C * δ ^ 2 := by
  intro e exact
  have he := C17_age_edges_mono g ha
  have hr0 := Real.rpow_pos_of_pos (show (0:ℝ) < 10 by norm_num) (get_lg_age_bin_edges g 0)
  have hobs0 : 0.001 ≤ t_obs := by linarith
  have hpp : ∀ x ∈ Icc t₀ T, 0 ≤ S x := fun x hx => le_trans (by norm_num) (hp x hx)
  have hpos := C166_populated (S := S) (T := T) (g := g) (t_obs := t_obs) h0.le hS.continuousOn (fun x hx => lt_of_lt_of_le (by norm_num) (hp x hx)) hobs (he (Fin.last_pos)) (by linarith)
  have hq := (share_prob hS.continuousOn hpp hobs0 hobs he.monotone hpos).2
  have hex : exact = Sfh.sedFrom S t₀ t_obs gal_lgmet scatter y g (withBurst p g flux) := by
    funext l
    simp only [exact, Sfh.sedFrom]
    congr 1
    refine Finset.sum_congr rfl fun i _ => ?_
    simp only [mul_assoc, ← Finset.mul_sum]
    congr 1
    simp only [withBurst, add_mul, mul_add, Finset.sum_add_distrib]
    rw [← Finset.sum_mul, hq, one_mul, Finset.mul_sum]
    congr 1
    · exact Finset.sum_congr rfl fun j _ => by ring
    · exact Finset.sum_congr rfl fun j _ => by ring
  have hwb : ∀ i j l, 0 < withBurst p g flux i j l := by
    intro i j l
    obtain ⟨i₀, -, hi⟩ := Finset.exists_min_image (Finset.univ : Finset (Fin (m + 3))) (fun j => flux i j l) ⟨0, Finset.mem_univ _⟩
    have f1 := (fb_mem (p := p) hf0).1
    have f2 := (fb_mem (p := p) hf0).2
    have hb := burst_prob (g := g) hpk hmeet
    have h1 : flux i i₀ l ≤ ∑ j', Sfh.burst p g j' * flux i j' l := by
      calc flux i i₀ l = ∑ j', Sfh.burst p g j' * flux i i₀ l := by rw [← Finset.sum_mul, hb.2, one_mul]
        _ ≤ _ := Finset.sum_le_sum fun j' _ => mul_le_mul_of_nonneg_left (hi j' (Finset.mem_univ _)) (hb.1 j')
    exact add_pos_of_pos_of_nonneg (mul_pos f1 ((hx i i₀ l).trans_le h1)) (mul_nonneg (sub_nonneg.mpr f2) (hx i j l).le)
  obtain ⟨C, d, hd, h⟩ := C168_history (flux := withBurst p g flux) h0 hT hS hp hobs0 hobs he.monotone hpos hZ hwb hw
  refine ⟨C, d, hd, fun [Dtype] δ hδ t ht {q} fw ft z Om0 w0 wa hh hgf hz hF => ?_⟩
  have hyt : t.2 0 < t_obs - (10:ℝ) ^ get_lg_age_bin_edges g 0 := by rw [ht.2.1]; exact hyoung
  have hold : t_obs - (10:ℝ) ^ get_lg_age_bin_edges g (Fin.last (m + 3)) < t.2 (Fin.last (t.1 + 1)) := by
    rw [ht.2.2.1]
    have := Real.rpow_pos_of_pos (show (0:ℝ) < 10 by norm_num) (get_lg_age_bin_edges g (Fin.last (m + 3)))
    linarith
  have hrange : 0 < massInRange t.2 (fun i => S (t.2 i)) g t_obs :=
    (C17_total_mass_pos_iff t.2 _ g t_obs 1e-14 (by norm_num) ht.1 (by rw [ht.2.1]; exact h0) ht.2.2.2.2 ha.1).2.mpr ⟨hyt, hold⟩
  rw [hex] at hF ⊢
  rw [bursty_as_smooth ht.1 (by rw [ht.2.1]; exact h0) he.monotone hrange hZ.2]
  exact h δ hδ t ht fw ft z Om0 w0 wa hh hgf hz hF

/-- case: 1 per cent of the mass in a burst peaked at 10 Myr and at most 30 Myr old -/
noncomputable def caseBurst : BurstParams := ⟨-2, 7, 7.5⟩
lemma caseBurst_meets : ∃ i : Fin 3, caseA i + 9 ∈ BurstSupport caseBurst.lgyr_peak caseBurst.lgyr_max :=
  ⟨0, by constructor <;> norm_num [caseA, caseBurst]⟩

example := C166_bursty (m := 0) (p := caseBurst) (S := fun x => 1 + x) (t₀ := 1) (T := 13.8) (t_obs := 13) (sfr_min := 1e-14) (g := caseA) (by norm_num [caseBurst]) (by norm_num) (by norm_num) (by norm_num)
  (by fun_prop) (fun x hx => by norm_num; linarith [hx.1]) (by norm_num) (by norm_num) caseA_edges case_from
example := C168_history_bursty (m := 0) (k := 2) (w := 1) (p := caseBurst) (S := fun x => 1 + x) (t₀ := 1) (T := 13.8) (t_obs := 13) (g := caseA) (gal_lgmet := -2.6) (scatter := 0.2) (y := caseZ)
  (wave := caseWave) (flux := fun _ _ _ => 1) (by norm_num [caseBurst]) (by norm_num [caseBurst]) caseBurst_meets (by norm_num) (by norm_num) (by fun_prop)
  (fun x hx => by norm_num; linarith [hx.1]) caseA_mild case_young_hist (by norm_num) case_Zprob (fun _ _ _ => one_pos) caseWave_mono.monotone

section
attribute [local instance] Dtype.float64
lemma case_growth : ∃ F, ∀ k : Fin 2, caseT k.succ ≤ F * caseT k.castSucc ∧
      1 + Real.log (tableMass (n := 1) caseT caseS 1e-14 k.succ / tableMass (n := 1) caseT caseS 1e-14 k.castSucc) ≤ F := by
  refine ⟨max 10 (max (1 + Real.log (tableMass (n := 1) caseT caseS 1e-14 (Fin.succ 0) / tableMass (n := 1) caseT caseS 1e-14 (Fin.castSucc 0)))
    (1 + Real.log (tableMass (n := 1) caseT caseS 1e-14 (Fin.succ 1) / tableMass (n := 1) caseT caseS 1e-14 (Fin.castSucc 1)))), fun k => ⟨?_, ?_⟩⟩
  · have hk : caseT k.succ = 10 * caseT k.castSucc := by simp [caseT, pow_succ]; ring
    rw [hk]
    exact mul_le_mul_of_nonneg_right (le_max_left _ _) (t_pos caseT_mono caseT_zero _).le
  · fin_cases k
    · exact (le_max_left _ _).trans (le_max_right _ _)
    · exact (le_max_right _ _).trans (le_max_right _ _)

/-- case: flat SSP spectra and a burst, the smooth history observed at 13 and at 13.5 Gyr -/
example : ∃ C, |calc_obs_mag (n := 1) (m := 2) caseWave (burstySed (n := 1) (k := 2) (m := 0) caseBurst caseT caseS (-2.6) 0.2 caseZ caseA (fun _ _ _ => 1) 13.5) caseFW caseFT (1 / 2) 0.3 (-1) 0 0.7 -
    calc_obs_mag (n := 1) (m := 2) caseWave (burstySed (n := 1) (k := 2) (m := 0) caseBurst caseT caseS (-2.6) 0.2 caseZ caseA (fun _ _ _ => 1) 13) caseFW caseFT (1 / 2) 0.3 (-1) 0 0.7| ≤ C := by
  obtain ⟨F, hF⟩ := case_growth
  have r1 := case_range 13 (by norm_num) (by norm_num)
  have r2 := case_range 13.5 (by norm_num) (by norm_num)
  refine ⟨_, C168_observation_time_bursty (n := 1) (k := 2) (m := 0) (w := 1) (q := 2) (p := caseBurst) (s := caseS) (a := caseA) (y := caseZ) (flux := fun _ _ _ => 1) (t_obs := 13) (t_obs' := 13.5) (gal_lgmet := -2.6)
    (scatter := 0.2) (B := 3) (F := F) (R := 1) (d := min (massInRange (n := 1) (m := 0) caseT caseS caseA 13) (massInRange (n := 1) (m := 0) caseT caseS caseA 13.5)) (by norm_num [caseBurst])
    (by norm_num [caseBurst]) caseBurst_meets caseT_mono caseT_zero caseT_resolved (fun i => by fin_cases i <;> norm_num [caseS]) hF caseA_edges case_Zprob (fun _ _ _ => one_pos) (fun _ _ _ _ _ => by norm_num)
    (by norm_num) (by norm_num) (lt_min r1 r2) (min_le_left _ _) (min_le_right _ _) caseWave_mono.monotone case_good (by norm_num) (case_detected fun l => ?_)⟩
  beta_reduce
  rw [bursty_as_smooth caseT_mono caseT_zero caseA_edges r1 case_Zprob.2, sed_value case_Zprob.2 (ages_prob caseT_mono caseT_zero caseA_edges r1).2]
  have hw := (withBurst_bounds (p := caseBurst) (a := caseA) (R := 1) (flux := fun (_ : Fin 5) (_ : Fin 3) (_ : Fin 3) => (1:ℝ)) (k := 2) (m := 0) (by norm_num [caseBurst])
    (burst_prob (by norm_num [caseBurst]) caseBurst_meets) (fun _ _ _ => one_pos) (fun _ _ _ _ _ => by norm_num))
  refine mul_pos (massFormed_pos _) (lt_of_lt_of_le (hw.1 0 0 l) (le_avg case_Zprob (ages_prob caseT_mono caseT_zero caseA_edges r1) fun i j => ?_))
  have := hw.2 0 0 i j l
  rwa [one_mul] at this
/-- case: age weights of a bursty galaxy at two observation times -/
example : ∃ C, ∀ i, |calc_bursty_age_weights caseBurst (calc_age_weights_from_sfh_table (n := 1) (m := 0) caseT caseS caseA 13.5 1e-14) caseA i -
    calc_bursty_age_weights caseBurst (calc_age_weights_from_sfh_table (n := 1) (m := 0) caseT caseS caseA 13 1e-14) caseA i| ≤ C := by
  obtain ⟨F, hF⟩ := case_growth
  exact ⟨_, fun i => C167_bursty (n := 1) (m := 0) (p := caseBurst) (t_obs := 13) (t_obs' := 13.5) (B := 3) (F := F) (by norm_num [caseBurst]) (by norm_num) caseT_mono caseT_zero caseT_resolved
    (fun i => by fin_cases i <;> norm_num [caseS]) hF caseA_edges i (case_range 13 (by norm_num) (by norm_num))⟩
end

end Dsps.Props
