import Verif.Props.HistoryMag
import Verif.Props.MetSens
import Verif.Props.Superpose

/-! C166, C168, continued: metallicity histories (`/repo/dsps/sed/metallicity_weights.py`, `/repo/dsps/sed/ssp_weights.py`, `/repo/dsps/sed/stellar_sed.py`). -/
namespace Dsps.Props
open Dsps.Utils Dsps.Lemmas Dsps.Photometry Dsps.Constants Dsps.StellarAgeWeights Dsps.SspWeights Jnp Spec Set
open Dsps.MetallicityWeights (calc_lgmet_weights_from_lognormal_mdf)
open scoped BigOperators

variable {n m k w : ℕ} {S H : ℝ → ℝ} {t₀ T t_obs scatter sfr_min : ℝ} {g : Fin (m + 3) → ℝ} {y : Fin (k + 3) → ℝ}

lemma clamp_log [Dtype] {t : Fin (n + 2) → ℝ} (ht : StrictMono t) (ht0 : 0.001 < t 0) (hr : Resolved fun i => log10 (t i)) {τ : ℝ} (h0 : 0 < τ)
    (fp : Fin (n + 2) → ℝ) : interp (log10 τ) (fun i => log10 (t i)) fp = interp (log10 (max (t 0) τ)) (fun i => log10 (t i)) fp := by
  rw [← interp_clamp hr fp (log10 τ), ← interp_clamp hr fp (log10 (max (t 0) τ)), interp_self hr, interp_self hr]
  congr 1
  rcases le_total (t 0) τ with h | h
  · rw [max_eq_right h]
  · rw [max_eq_left h]
    have h1 := log10_le h0 h
    have h2 := hr.strictMono.monotone (Fin.zero_le (Fin.last (n + 1)))
    beta_reduce at h2
    rw [min_eq_left h2, max_self, max_eq_left ((min_le_left _ _).trans h1)]

/-- C166: **metallicity histories.** The metallicity read off a table of a twice differentiable metallicity history differs from the metallicity at the time (at the start of the table,
for times before it) by at most a constant times the square of the largest time step. -/
theorem C166_metallicity (h0 : 0.001 < t₀) (hT : t₀ < T) (hH : ContDiffOn ℝ 2 H (Icc t₀ T)) :
    ∃ C, 0 ≤ C ∧ ∀ [Dtype], ∀ δ, ∀ t ∈ Sfh.Table t₀ T δ, ∀ τ, 0 < τ → τ ≤ T →
      |interp (log10 τ) (fun i => log10 (t.2 i)) (fun i => H (t.2 i)) - H (max t₀ τ)| ≤ C * δ ^ 2 := by
  have p0 : 0 < t₀ := lt_trans (by norm_num) h0
  have e : ∀ x, 0 < x → (10:ℝ) ^ log10 x = x := fun x hx => Real.rpow_logb (by norm_num) (by norm_num) hx
  have hc : ContDiffOn ℝ 2 (fun x : ℝ => H ((10:ℝ) ^ x)) (Icc (log10 t₀) (log10 T)) := by
    refine hH.comp (contDiff_const.rpow contDiff_id fun _ => by norm_num).contDiffOn fun x hx => ?_
    constructor
    · rw [← e t₀ p0]
      exact Real.rpow_le_rpow_of_exponent_le (by norm_num) hx.1
    · rw [← e T (p0.trans hT)]
      exact Real.rpow_le_rpow_of_exponent_le (by norm_num) hx.2
  obtain ⟨M, hM, hcur⟩ := Curved.of_contDiff hc
  refine ⟨M / 8 * (1 / (t₀ * Real.log 10)) ^ 2, by positivity, fun [Dtype] δ t ht τ hτ hτT => ?_⟩
  obtain ⟨hs, ha, hb, hδ, hr⟩ := ht
  have htp : ∀ i, 0.001 ≤ t.2 i := fun i => by
    have := hs.monotone (Fin.zero_le i)
    linarith
  rw [clamp_log hs (by rw [ha]; exact h0) hr hτ, ha]
  have hmem : log10 (max t₀ τ) ∈ Icc (log10 (t.2 0)) (log10 (t.2 (Fin.last (t.1 + 1)))) := by
    rw [ha, hb]
    have : t₀ ≤ T := by
      rw [← ha, ← hb]; exact hs.monotone (Fin.zero_le _)
    exact ⟨log10_le p0 (le_max_left _ _), log10_le (lt_max_of_lt_left p0) (max_le this hτT)⟩
  have := C166_interp (f := fun x : ℝ => H ((10:ℝ) ^ x)) (w := fun i => log10 (t.2 i)) (δ := δ / (t₀ * Real.log 10)) hr (by simpa only [ha, hb] using hcur) hM (fun i => by
    have h1 := hs (Fin.castSucc_lt_succ (i := i))
    have h2 : t₀ ≤ t.2 i.castSucc := by rw [← ha]; exact hs.monotone (Fin.zero_le _)
    have hl : 0 < Real.log 10 := Real.log_pos (by norm_num)
    refine (log10_gap (p0.trans_le h2) h1.le).trans ?_
    exact div_le_div₀ (by have := hδ i; linarith) (hδ i) (by positivity) (mul_le_mul_of_nonneg_right h2 hl.le)) hmem
  have e2 : (fun i => H ((10:ℝ) ^ log10 (t.2 i))) = fun i => H (t.2 i) := funext fun i => by rw [e _ (lt_of_lt_of_le (by norm_num) (htp i))]
  rw [e2] at this
  beta_reduce at this
  rw [e _ (lt_max_of_lt_left p0)] at this
  refine this.trans_eq (by ring)

/-- **Specification.** SED of a galaxy with star formation history `S` and metallicity history `H` (both from `t₀` on): mass formed, times the average over the shares of mass born in each
age bin of the SSP spectra averaged over the metallicity distribution about the metallicity at the birth of that bin's stars -/
noncomputable def Sfh.sedHistories (S H : ℝ → ℝ) (t₀ t_obs scatter : ℝ) (y : Fin (k + 3) → ℝ) (g : Fin (m + 3) → ℝ) (flux : Fin (k + 3) → Fin (m + 3) → Fin w → ℝ) (l : Fin w) : ℝ :=
  let e := get_lg_age_bin_edges g
  Sfh.massFrom S t₀ t_obs * ∑ i, ∑ j, calc_lgmet_weights_from_lognormal_mdf (H (max t₀ (birthTime t_obs (g j)))) scatter y i *
    Sfh.shareFrom S t₀ t_obs (e j.castSucc) (e j.succ) (e 0) (e (Fin.last (m + 3))) * flux i j l

/-- the light per unit mass of stars of one age, in nearby metallicity distributions -/
lemma light_diff {ι : Type*} [Fintype ι] {v v' f : ι → ℝ} {E B : ℝ} (hd : ∑ i, |v' i - v i| ≤ E) (hB : ∀ i, |f i| ≤ B) (hB0 : 0 ≤ B) : |∑ i, v' i * f i - ∑ i, v i * f i| ≤ E * B := by
  rw [← Finset.sum_sub_distrib]
  calc |∑ i, (v' i * f i - v i * f i)| ≤ ∑ i, |v' i - v i| * B := (Finset.abs_sum_le_sum_abs _ _).trans (Finset.sum_le_sum fun i _ => by
        rw [← sub_mul, abs_mul]; exact mul_le_mul_of_nonneg_left (hB i) (abs_nonneg _))
    _ = (∑ i, |v' i - v i|) * B := by rw [Finset.sum_mul]
    _ ≤ E * B := mul_le_mul_of_nonneg_right hd hB0

lemma table_inputs [Dtype] {δ : ℝ} (h0 : 0.001 < t₀) (ha : MildlySpaced g) (hyoung : t₀ < t_obs - (10:ℝ) ^ get_lg_age_bin_edges g 0) (hobs : t_obs ≤ T) (hσ : 0 < scatter)
    (hy : MildlySpaced y) (hlo : -10 < y 0) (hhi : y (Fin.last (k + 2)) < 10) {t : Σ n : ℕ, Fin (n + 2) → ℝ} (ht : t ∈ Sfh.Table t₀ T δ) : SedInputs t.2 g y t_obs scatter := by
  obtain ⟨hs, hl, hh, -, hr⟩ := ht
  refine ⟨hs, by rw [hl]; exact h0, hr, ha, by rw [hl]; exact hyoung, ?_, hσ, hy, hlo, hhi⟩
  rw [hh]
  have := Real.rpow_pos_of_pos (show (0:ℝ) < 10 by norm_num) (get_lg_age_bin_edges g (Fin.last (m + 3)))
  linarith

/-- C166: **spectra with a metallicity history.** The spectrum computed from tables of a twice differentiable star formation history and metallicity history has an error of second order in the time steps. -/
theorem C166_sed_met {flux : Fin (k + 3) → Fin (m + 3) → Fin w → ℝ} (hs : 0 < sfr_min) (h0 : 0.001 < t₀) (hT : t₀ < T) (hS : ContDiffOn ℝ 2 S (Icc t₀ T))
    (hp : ∀ x ∈ Icc t₀ T, sfr_min ≤ S x ∧ 1e-14 ≤ S x) (hH : ContDiffOn ℝ 2 H (Icc t₀ T)) (hH7 : ∀ x ∈ Icc t₀ T, |H x| ≤ 7) (ha : MildlySpaced g)
    (hyoung : t₀ < t_obs - (10:ℝ) ^ get_lg_age_bin_edges g 0) (hobs : t_obs ≤ T) (hσ : 0 < scatter) (hσ1 : scatter ≤ 1) (hy : MildlySpaced y) (hlo : -10 < y 0)
    (hhi : y (Fin.last (k + 2)) < 10) (l : Fin w) :
    ∃ C δ₀, 0 < δ₀ ∧ ∀ [Dtype], ∀ δ ≤ δ₀, ∀ t ∈ Sfh.Table t₀ T δ,
      |(calc_rest_sed_sfh_table_met_table t.2 (fun i => S (t.2 i)) (fun i => H (t.2 i)) scatter y g flux t_obs sfr_min).rest_sed l -
        Sfh.sedHistories S H t₀ t_obs scatter y g flux l| ≤ C * δ ^ 2 := by
  have he := C17_age_edges_mono g ha
  have hr0 := Real.rpow_pos_of_pos (show (0:ℝ) < 10 by norm_num) (get_lg_age_bin_edges g 0)
  have hobs0 : 0.001 ≤ t_obs := by linarith
  have hpos := C166_populated (S := S) (T := T) (g := g) (t_obs := t_obs) h0.le hS.continuousOn (fun x hx => lt_of_lt_of_le (by norm_num) (hp x hx).2) hobs (he (Fin.last_pos)) (by linarith)
  set Z := fun x => calc_lgmet_weights_from_lognormal_mdf x scatter y with hZ
  have hmet := fun x => C21_lgmet_weights_prob_mild_partial x scatter hσ y hy hlo hhi
  set b := fun j : Fin (m + 3) => birthTime t_obs (g j) with hb
  have hbT : ∀ j, b j ≤ T := fun j => (birth_mem hobs0 hobs).2
  set X := fun j : Fin (m + 3) => ∑ i, Z (H (max t₀ (b j))) i * flux i j l with hX
  obtain ⟨C1, d1, p1, h1⟩ := C166_sed (w := 1) (g := g) (t_obs := t_obs) (gal_lgmet := 0) (scatter := scatter) (y := y) (flux := fun _ j _ => X j) hs h0 hT hS hp hobs0 hobs he.monotone hpos (hmet 0).2 0
  obtain ⟨C2, d2, p2, h2⟩ := C166_mass_formed (S := S) hs h0 hT hS (fun x hx => (hp x hx).1)
  obtain ⟨C3, p3, h3⟩ := C166_metallicity h0 hT hH
  set B := ∑ i, ∑ j, |flux i j l| with hB
  have hB0 : 0 ≤ B := Finset.sum_nonneg fun _ _ => Finset.sum_nonneg fun _ _ => abs_nonneg _
  have hBf : ∀ i j, |flux i j l| ≤ B := fun i j =>
    (Finset.single_le_sum (f := fun j => |flux i j l|) (fun _ _ => abs_nonneg _) (Finset.mem_univ j)).trans
      (Finset.single_le_sum (f := fun i => ∑ j, |flux i j l|) (fun _ _ => Finset.sum_nonneg fun _ _ => abs_nonneg _) (Finset.mem_univ i))
  set m₀ := Sfh.massFrom S t₀ t_obs with hm0
  set K := 35 / 48 * (C3 / scatter) * B with hK
  have hK0 : 0 ≤ K := by positivity
  refine ⟨C1 + (|m₀| + |C2|) * K, min 1 (min d1 d2), by positivity, fun [Dtype] δ hδ t ht => ?_⟩
  have k0 : δ ≤ 1 := hδ.trans (min_le_left _ _)
  have k1 : δ ≤ d1 := hδ.trans ((min_le_right _ _).trans (min_le_left _ _))
  have k2 : δ ≤ d2 := hδ.trans ((min_le_right _ _).trans (min_le_right _ _))
  have hδ0 : 0 ≤ δ := by
    have := ht.2.2.2.1 0
    have h3 := ht.1 (Fin.castSucc_lt_succ (i := (0 : Fin (t.1 + 1))))
    linarith
  have hsq : δ ^ 2 ≤ 1 := pow_le_one₀ hδ0 k0
  have I := table_inputs h0 ha hyoung hobs hσ hy hlo hhi ht
  have hmem : ∀ i, t.2 i ∈ Icc t₀ T := fun i => ⟨by rw [← ht.2.1]; exact ht.1.monotone (Fin.zero_le _), by rw [← ht.2.2.1]; exact ht.1.monotone (Fin.le_last _)⟩
  have e1 := h1 δ k1 t ht
  have e2 := h2 δ k2 t ht t_obs (lt_of_lt_of_le (by norm_num) hobs0) hobs
  rw [(mix_form (zt := fun _ => 0) (s := fun i => S (t.2 i)) (flux := fun _ j _ => X j) (sfr_min := sfr_min) (μ := 0) I (fun _ => by norm_num) (0 : Fin 1)).1] at e1
  rw [(mix_form (zt := fun i => H (t.2 i)) (s := fun i => S (t.2 i)) (flux := flux) (sfr_min := sfr_min) (μ := 0) I (fun i => hH7 _ (hmem i)) l).2]
  have hage := C17_age_weights_prob_mild_partial t.2 (fun i => S (t.2 i)) g t_obs I.times I.start I.resolved I.ages I.young I.old
  simp only [← Finset.sum_mul, (hmet 0).2, one_mul] at e1
  have spec : Sfh.sedHistories S H t₀ t_obs scatter y g flux l = Sfh.massFrom S t₀ t_obs * ∑ i, ∑ j, Z 0 i *
      Sfh.shareFrom S t₀ t_obs (get_lg_age_bin_edges g j.castSucc) (get_lg_age_bin_edges g j.succ) (get_lg_age_bin_edges g 0) (get_lg_age_bin_edges g (Fin.last (m + 3))) * X j := by
    simp only [mul_assoc, ← Finset.mul_sum]
    rw [← Finset.sum_mul, (hmet 0).2, one_mul]
    unfold Sfh.sedHistories
    simp only
    rw [Finset.sum_comm]
    congr 1
    refine Finset.sum_congr rfl fun j _ => ?_
    rw [hX]
    simp only [Finset.mul_sum]
    exact Finset.sum_congr rfl fun i _ => by ring
  rw [spec]
  set P := Sfh.massFrom S t₀ t_obs * ∑ i, ∑ j, Z 0 i *
      Sfh.shareFrom S t₀ t_obs (get_lg_age_bin_edges g j.castSucc) (get_lg_age_bin_edges g j.succ) (get_lg_age_bin_edges g 0) (get_lg_age_bin_edges g (Fin.last (m + 3))) * X j
  set A := calc_age_weights_from_sfh_table t.2 (fun i => S (t.2 i)) g t_obs SFR_MIN
  set M := fun j : Fin (m + 3) => interp (Real.logb 10 (birthTime t_obs (g j))) (fun l => Real.logb 10 (t.2 l)) (fun i => H (t.2 i)) with hM
  have hlog : Monotone fun l => Real.logb 10 (t.2 l) := (lgt_strictMono I.times I.start).monotone
  have hM7 : ∀ j, |M j| ≤ 7 := fun j => by
    rw [abs_le]
    exact interp_bounds hlog _ (-7) 7 (fun i => (abs_le.1 (hH7 _ (hmem i))).1) (fun i => (abs_le.1 (hH7 _ (hmem i))).2)
  have hH7' : ∀ j, |H (max t₀ (b j))| ≤ 7 := fun j => hH7 _ ⟨le_max_left _ _, max_le hT.le (hbT j)⟩
  have hMH : ∀ j, |M j - H (max t₀ (b j))| ≤ C3 * δ ^ 2 := fun j => h3 δ t ht (b j) (birthTime_pos _ _) (hbT j)
  have hXX : ∀ j, |∑ i, Z (M j) i * flux i j l - X j| ≤ K * δ ^ 2 := fun j => by
    have a1 := abs_le.mp (hM7 j)
    have a2 := abs_le.mp (hH7' j)
    have := light_diff (f := fun i => flux i j l) (C155_lgmet_weights (μ := H (max t₀ (b j))) (μ' := M j) (z := y) hσ (by linarith) (by linarith) (by linarith) (by linarith) hy hlo hhi) (fun i => hBf i j) hB0
    refine this.trans ?_
    have h5 : |M j - H (max t₀ (b j))| / scatter ≤ C3 * δ ^ 2 / scatter := div_le_div_of_nonneg_right (hMH j) hσ.le
    have h6 : K * δ ^ 2 = 35 / 48 * (C3 * δ ^ 2 / scatter) * B := by rw [hK]; ring
    rw [h6]
    gcongr
  set m' := massFormed t.2 (fun i => S (t.2 i)) sfr_min t_obs
  have hm' : |m'| ≤ |m₀| + |C2| := by
    have := abs_sub_abs_le_abs_sub m' m₀
    have h5 := le_abs_self C2
    have h6 : C2 * δ ^ 2 ≤ |C2| := by nlinarith [abs_nonneg C2, sq_nonneg δ]
    linarith
  have hav : |∑ j, A j * ∑ i, Z (M j) i * flux i j l - ∑ j, A j * X j| ≤ K * δ ^ 2 := by
    rw [← Finset.sum_sub_distrib]
    calc |∑ j, (A j * ∑ i, Z (M j) i * flux i j l - A j * X j)| ≤ ∑ j, A j * (K * δ ^ 2) := (Finset.abs_sum_le_sum_abs _ _).trans (Finset.sum_le_sum fun j _ => by
          rw [← mul_sub, abs_mul, abs_of_nonneg (hage.1 j)]
          exact mul_le_mul_of_nonneg_left (hXX j) (hage.1 j))
      _ = K * δ ^ 2 := by rw [← Finset.sum_mul, hage.2, one_mul]
  have key : |m' * ∑ j, A j * ∑ i, Z (M j) i * flux i j l - m' * ∑ j, A j * X j| ≤ (|m₀| + |C2|) * (K * δ ^ 2) := by
    rw [← mul_sub, abs_mul]
    exact mul_le_mul hm' hav (abs_nonneg _) (by positivity)
  have tri := abs_sub_le (m' * ∑ j, A j * ∑ i, Z (M j) i * flux i j l) (m' * ∑ j, A j * X j) P
  have e3 : (C1 + (|m₀| + |C2|) * K) * δ ^ 2 = C1 * δ ^ 2 + (|m₀| + |C2|) * (K * δ ^ 2) := by ring
  rw [e3]
  linarith

/-- spectra that converge at second order, at every wavelength, have magnitudes that do -/
lemma sedmag_order {wave X : Fin (w + 2) → ℝ} {G : Dtype → (Σ n : ℕ, Fin (n + 2) → ℝ) → Fin (w + 2) → ℝ} (hw : Monotone wave) (hXp : ∀ l, 0 < X l)
    (hl : ∀ l, ∃ C δ₀, 0 < δ₀ ∧ ∀ [D : Dtype], ∀ δ ≤ δ₀, ∀ t ∈ Sfh.Table t₀ T δ, |G D t l - X l| ≤ C * δ ^ 2) :
    ∃ C δ₀, 0 < δ₀ ∧ ∀ [D : Dtype], ∀ δ ≤ δ₀, ∀ t ∈ Sfh.Table t₀ T δ, ∀ {q : ℕ} (fw ft : Fin (q + 1) → ℝ) (z Om0 w0 wa h : ℝ), GoodFilter fw ft → -1 < z →
      0 < obs_flux_ssp wave X fw ft z / flux_ab0_at_10pc fw ft →
      |calc_obs_mag wave (G D t) fw ft z Om0 w0 wa h - calc_obs_mag wave X fw ft z Om0 w0 wa h| ≤ C * δ ^ 2 := by
  choose C d hd hC using hl
  obtain ⟨l₀, -, hl₀⟩ := Finset.exists_min_image (Finset.univ : Finset (Fin (w + 2))) X ⟨0, Finset.mem_univ _⟩
  obtain ⟨l₁, -, hl₁⟩ := Finset.exists_min_image (Finset.univ : Finset (Fin (w + 2))) d ⟨0, Finset.mem_univ _⟩
  set K := ∑ l, |C l| with hK
  have hK0 : 0 ≤ K := Finset.sum_nonneg fun _ _ => abs_nonneg _
  have hCK : ∀ l, C l ≤ K := fun l => (le_abs_self _).trans (Finset.single_le_sum (f := fun l => |C l|) (fun _ _ => abs_nonneg _) (Finset.mem_univ l))
  set x₀ := X l₀ with hx0
  have hx0p : 0 < x₀ := hXp l₀
  refine ⟨1.09 * (2 * K / x₀), min (d l₁) (min 1 (x₀ / (2 * (K + 1)))), lt_min (hd l₁) (lt_min one_pos (by positivity)), fun [D : Dtype] δ hδ t ht {q} fw ft z Om0 w0 wa h hf hz hF => ?_⟩
  have hδ0 : 0 ≤ δ := by
    have := ht.2.2.2.1 0
    have h3 := ht.1 (Fin.castSucc_lt_succ (i := (0 : Fin (t.1 + 1))))
    linarith
  have k1 : δ ≤ 1 := hδ.trans ((min_le_right _ _).trans (min_le_left _ _))
  have k2 : δ ≤ x₀ / (2 * (K + 1)) := hδ.trans ((min_le_right _ _).trans (min_le_right _ _))
  rw [le_div_iff₀ (by positivity)] at k2
  have hsq : K * δ ^ 2 ≤ x₀ / 2 := by nlinarith [mul_nonneg hK0 hδ0]
  have hb : ∀ l, |G D t l - X l| ≤ K * δ ^ 2 := fun l =>
    (hC l δ (hδ.trans ((min_le_left _ _).trans (hl₁ l (Finset.mem_univ _)))) t ht).trans (mul_le_mul_of_nonneg_right (hCK l) (sq_nonneg _))
  have e0 : 0 ≤ 2 * K / x₀ * δ ^ 2 := by positivity
  have key : 2 * K / x₀ * δ ^ 2 * (x₀ / 2) = K * δ ^ 2 := by field_simp
  have up : ∀ l, X l ≤ (1 + 2 * K / x₀ * δ ^ 2) * G D t l := by
    intro l
    have h1 := abs_le.mp (hb l)
    have h2 := hl₀ l (Finset.mem_univ _)
    have h3 : x₀ / 2 ≤ G D t l := by linarith [h1.1]
    have := mul_le_mul_of_nonneg_left h3 e0
    linarith [h1.1]
  have dn : ∀ l, G D t l ≤ (1 + 2 * K / x₀ * δ ^ 2) * X l := by
    intro l
    have h1 := abs_le.mp (hb l)
    have h2 := hl₀ l (Finset.mem_univ _)
    have h3 : x₀ / 2 ≤ X l := by linarith
    have := mul_le_mul_of_nonneg_left h3 e0
    linarith [h1.2]
  have := C168_mag_relative (Om0 := Om0) (w0 := w0) (wa := wa) (h := h) hw hf hz e0 up dn hF
  exact (this.1.trans this.2).trans_eq (by ring)

/-- C168: **magnitudes with a metallicity history** are second-order accurate in the time steps of the tables of star formation rate and metallicity, with one constant for all filters,
redshifts and cosmologies. -/
theorem C168_history_met {wave : Fin (w + 2) → ℝ} {flux : Fin (k + 3) → Fin (m + 3) → Fin (w + 2) → ℝ} (h0 : 0.001 < t₀) (hT : t₀ < T) (hS : ContDiffOn ℝ 2 S (Icc t₀ T))
    (hp : ∀ x ∈ Icc t₀ T, 1e-14 ≤ S x) (hH : ContDiffOn ℝ 2 H (Icc t₀ T)) (hH7 : ∀ x ∈ Icc t₀ T, |H x| ≤ 7) (ha : MildlySpaced g)
    (hyoung : t₀ < t_obs - (10:ℝ) ^ get_lg_age_bin_edges g 0) (hobs : t_obs ≤ T) (hσ : 0 < scatter) (hσ1 : scatter ≤ 1) (hy : MildlySpaced y) (hlo : -10 < y 0)
    (hhi : y (Fin.last (k + 2)) < 10) (hx : ∀ i j l, 0 < flux i j l) (hw : Monotone wave) :
    ∃ C δ₀, 0 < δ₀ ∧ ∀ [Dtype], ∀ δ ≤ δ₀, ∀ t ∈ Sfh.Table t₀ T δ, ∀ {q : ℕ} (fw ft : Fin (q + 1) → ℝ) (z Om0 w0 wa h : ℝ), GoodFilter fw ft → -1 < z →
      0 < obs_flux_ssp wave (Sfh.sedHistories S H t₀ t_obs scatter y g flux) fw ft z / flux_ab0_at_10pc fw ft →
      |calc_obs_mag wave (calc_rest_sed_sfh_table_met_table t.2 (fun i => S (t.2 i)) (fun i => H (t.2 i)) scatter y g flux t_obs).rest_sed fw ft z Om0 w0 wa h -
        calc_obs_mag wave (Sfh.sedHistories S H t₀ t_obs scatter y g flux) fw ft z Om0 w0 wa h| ≤ C * δ ^ 2 := by
  refine sedmag_order (G := fun _ t => (calc_rest_sed_sfh_table_met_table t.2 (fun i => S (t.2 i)) (fun i => H (t.2 i)) scatter y g flux t_obs).rest_sed) hw ?_
    fun l => C166_sed_met (sfr_min := SFR_MIN) floor_pos h0 hT hS (fun x hx => ⟨hp x hx, hp x hx⟩) hH hH7 ha hyoung hobs hσ hσ1 hy hlo hhi l
  intro l
  have he := C17_age_edges_mono g ha
  have hr0 := Real.rpow_pos_of_pos (show (0:ℝ) < 10 by norm_num) (get_lg_age_bin_edges g 0)
  have hobs0 : 0.001 ≤ t_obs := by linarith
  have hpp : ∀ x ∈ Icc t₀ T, 0 ≤ S x := fun x hx => le_trans (by norm_num) (hp x hx)
  have hpos := C166_populated (S := S) (T := T) (g := g) (t_obs := t_obs) h0.le hS.continuousOn (fun x hx => lt_of_lt_of_le (by norm_num) (hp x hx)) hobs (he (Fin.last_pos)) (by linarith)
  have hq := share_prob hS.continuousOn hpp hobs0 hobs he.monotone hpos
  have hZ := fun x => C21_lgmet_weights_prob_mild_partial x scatter hσ y hy hlo hhi
  have hm : 0 < Sfh.massFrom S t₀ t_obs := by
    have h1 := massFrom_mono hS.continuousOn hpp (birth_mem (a := get_lg_age_bin_edges g 0) hobs0 le_rfl).2 hobs
    refine lt_of_le_of_lt ?_ (hpos.trans_le h1)
    have h2 := massFrom_mono hS.continuousOn hpp (min_le_right t₀ (birthTime t_obs (get_lg_age_bin_edges g (Fin.last (m + 3))))) (birth_mem hobs0 hobs).2
    refine le_trans ?_ h2
    rw [massFrom_of_le (min_le_left _ _)]
    have : 0 ≤ (t₀ - 0.001) * (1e-14 + S t₀) := mul_nonneg (by linarith) (by linarith [hpp t₀ ⟨le_rfl, hT.le⟩])
    positivity
  refine mul_pos hm ?_
  obtain ⟨p, -, hpm⟩ := Finset.exists_min_image (Finset.univ : Finset (Fin (k + 3) × Fin (m + 3))) (fun p => flux p.1 p.2 l) ⟨(0, 0), Finset.mem_univ _⟩
  refine lt_of_lt_of_le (hx p.1 p.2 l) ?_
  rw [Finset.sum_comm]
  calc flux p.1 p.2 l = ∑ j, ∑ i, calc_lgmet_weights_from_lognormal_mdf (H (max t₀ (birthTime t_obs (g j)))) scatter y i *
        Sfh.shareFrom S t₀ t_obs (get_lg_age_bin_edges g j.castSucc) (get_lg_age_bin_edges g j.succ) (get_lg_age_bin_edges g 0) (get_lg_age_bin_edges g (Fin.last (m + 3))) * flux p.1 p.2 l := by
        simp only [← Finset.sum_mul, (hZ _).2, one_mul]
        rw [hq.2, one_mul]
    _ ≤ _ := Finset.sum_le_sum fun j _ => Finset.sum_le_sum fun i _ => mul_le_mul_of_nonneg_left (hpm (i, j) (Finset.mem_univ _)) (mul_nonneg ((hZ _).1 i) (hq.1 j))

section time
variable [Dtype] {t s zt : Fin (n + 2) → ℝ} {a : Fin (m + 3) → ℝ} {t_obs' : ℝ}

omit [Dtype] in
lemma mag_small {e : ℝ} (he : 0 ≤ e) : 2.5 * Real.logb 10 (1 + e) ≤ 1.09 * e := by
  have hl : Real.log (1 + e) ≤ e := by linarith [Real.log_le_sub_one_of_pos (show 0 < 1 + e by linarith)]
  have h10 := log10_bounds.1
  unfold Real.logb
  rw [← mul_div_assoc, div_le_iff₀ (by linarith)]
  nlinarith

omit [Dtype] in
lemma log10_lip {c x y : ℝ} (hc : 0 < c) (hx : c ≤ x) (hy : c ≤ y) : |log10 x - log10 y| ≤ |x - y| / (c * Real.log 10) := by
  have hl : 0 < Real.log 10 := Real.log_pos (by norm_num)
  have key : ∀ x y, c ≤ x → x ≤ y → log10 y - log10 x ≤ (y - x) / (c * Real.log 10) := fun x y hx hxy =>
    (log10_gap (hc.trans_le hx) hxy).trans (div_le_div_of_nonneg_left (sub_nonneg.mpr hxy) (by positivity) (mul_le_mul_of_nonneg_right hx hl.le))
  rcases le_total x y with h | h
  · rw [abs_sub_comm, abs_sub_comm x, abs_of_nonneg (sub_nonneg.mpr (log10_le (hc.trans_le hx) h)), abs_of_nonneg (sub_nonneg.mpr h)]
    exact key x y hx h
  · rw [abs_of_nonneg (sub_nonneg.mpr (log10_le (hc.trans_le hy) h)), abs_of_nonneg (sub_nonneg.mpr h)]
    exact key y x hy h

/-- C168: **metallicity at birth.** If the metallicity of the table changes by at most `L` dex per dex of time, the metallicity of the stars of any age depends on the observation time with
rate at most `L / (t₀ log 10)` dex per Gyr, with `t₀` the first time of the table. -/
theorem C168_metallicity_at_birth {L : ℝ} (ht : StrictMono t) (ht0 : 0.001 < t 0) (hr : Resolved fun i => log10 (t i)) (hL0 : 0 ≤ L)
    (hL : ∀ i : Fin (n + 1), |zt i.succ - zt i.castSucc| ≤ L * (log10 (t i.succ) - log10 (t i.castSucc))) (lgage : ℝ) :
    |interp (log10 (birthTime t_obs' lgage)) (fun i => log10 (t i)) zt - interp (log10 (birthTime t_obs lgage)) (fun i => log10 (t i)) zt| ≤ L * (|t_obs' - t_obs| / (t 0 * Real.log 10)) := by
  have p0 : 0 < t 0 := lt_trans (by norm_num) ht0
  have hl : 0 < Real.log 10 := Real.log_pos (by norm_num)
  rw [clamp_log ht ht0 hr (birthTime_pos _ _), clamp_log ht ht0 hr (birthTime_pos t_obs _)]
  refine (interp_lipschitz hr hL0 hL _ _).trans (mul_le_mul_of_nonneg_left ((log10_lip p0 (le_max_left _ _) (le_max_left _ _)).trans ?_) hL0)
  refine div_le_div_of_nonneg_right ?_ (by positivity)
  have key : ∀ c p q : ℝ, |max c p - max c q| ≤ |p - q| := fun c p q => by
    rw [max_comm c, max_comm c]; exact abs_max_sub_max_le_abs p q c
  refine (key _ _ _).trans ?_
  unfold birthTime
  refine (key _ _ _).trans (le_of_eq ?_)
  congr 1; ring

/-- the table's spectrum is that of one metallicity, of stars whose light already is averaged over the metallicities -/
lemma met_as_mix {flux : Fin (k + 3) → Fin (m + 3) → Fin w → ℝ} (I : SedInputs t a y t_obs scatter) (hzt : ∀ i, |zt i| ≤ 7) :
    (calc_rest_sed_sfh_table_met_table t s zt scatter y a flux t_obs sfr_min).rest_sed = (calc_rest_sed_sfh_table_lognormal_mdf t s 0 scatter y a (fun _ j l =>
      ∑ i, calc_lgmet_weights_from_lognormal_mdf (interp (log10 (birthTime t_obs (a j))) (fun i => log10 (t i)) zt) scatter y i * flux i j l) t_obs sfr_min).rest_sed := by
  funext l
  have hmet := C21_lgmet_weights_prob_mild_partial 0 scatter I.width y I.mets I.low I.high
  rw [(mix_form (zt := zt) (s := s) (flux := flux) (sfr_min := sfr_min) (μ := 0) I hzt l).2, (mix_form (zt := zt) (s := s) (sfr_min := sfr_min) (μ := 0) I hzt l).1]
  congr 1
  refine Finset.sum_congr rfl fun j _ => ?_
  rw [← Finset.sum_mul, hmet.2, one_mul]
  rfl

/-- one side of the theorem below -/
lemma sed_time_met_le {flux : Fin (k + 3) → Fin (m + 3) → Fin w → ℝ} {B F R L d : ℝ} (I : SedInputs t a y t_obs scatter) (I' : SedInputs t a y t_obs' scatter) (hB : ∀ i, max 1e-14 (s i) ≤ B)
    (hF : ∀ k : Fin (n + 1), t k.succ ≤ F * t k.castSucc ∧ 1 + Real.log (tableMass t s 1e-14 k.succ / tableMass t s 1e-14 k.castSucc) ≤ F)
    (hzt : ∀ i, |zt i| ≤ 7) (hσ1 : scatter ≤ 1) (hL0 : 0 ≤ L) (hL : ∀ i : Fin (n + 1), |zt i.succ - zt i.castSucc| ≤ L * (log10 (t i.succ) - log10 (t i.castSucc)))
    (hx : ∀ i j l, 0 < flux i j l) (hR : ∀ i j i' j' l, flux i j l ≤ R * flux i' j' l) (hd : 0 < d) (hD : d ≤ massInRange t s a t_obs) (hD' : d ≤ massInRange t s a t_obs') (l : Fin w) :
    (calc_rest_sed_sfh_table_met_table t s zt scatter y a flux t_obs').rest_sed l ≤
      (1 + (R - 1) * (35 / 96 * (L * (|t_obs' - t_obs| / (t 0 * Real.log 10)) / scatter))) * ((1 + (4 * m + 13) * R * (1e9 * B * F * |t_obs' - t_obs|) / d) *
        (calc_rest_sed_sfh_table_met_table t s zt scatter y a flux t_obs).rest_sed l) := by
  have he := (C17_age_edges_mono a I.ages).monotone
  have hZ := fun x => C21_lgmet_weights_prob_mild_partial x scatter I.width y I.mets I.low I.high
  have hr0 := Real.rpow_pos_of_pos (show (0:ℝ) < 10 by norm_num) (get_lg_age_bin_edges a 0)
  have o : 0.001 ≤ t_obs := by linarith [I.start, I.young]
  have o' : 0.001 ≤ t_obs' := by linarith [I'.start, I'.young]
  have hR1 : 1 ≤ R := by
    have h1 := hR 0 0 0 0 l
    have h2 := hx 0 0 l
    by_contra hc
    nlinarith
  set M := fun t_obs j => interp (log10 (birthTime t_obs (a j))) (fun i => log10 (t i)) zt with hM
  set X := fun t_obs (_ : Fin (k + 3)) j l => ∑ i, calc_lgmet_weights_from_lognormal_mdf (M t_obs j) scatter y i * flux i j l with hX
  have hXle : ∀ τ i' j' j l, X τ i' j l ≤ R * flux i' j' l := fun τ i' j' j l =>
    calc X τ i' j l ≤ ∑ i, calc_lgmet_weights_from_lognormal_mdf (M τ j) scatter y i * (R * flux i' j' l) :=
          Finset.sum_le_sum fun i _ => mul_le_mul_of_nonneg_left (hR i j i' j' l) ((hZ _).1 i)
      _ = _ := by rw [← Finset.sum_mul, (hZ _).2, one_mul]
  have hXp : ∀ τ i' j l, 0 < X τ i' j l := fun τ i' j l => by
    obtain ⟨i₀, -, hi⟩ := Finset.exists_min_image (Finset.univ : Finset (Fin (k + 3))) (fun i => flux i j l) ⟨0, Finset.mem_univ _⟩
    refine (hx i₀ j l).trans_le ?_
    calc flux i₀ j l = ∑ i, calc_lgmet_weights_from_lognormal_mdf (M τ j) scatter y i * flux i₀ j l := by rw [← Finset.sum_mul, (hZ _).2, one_mul]
      _ ≤ _ := Finset.sum_le_sum fun i _ => mul_le_mul_of_nonneg_left (hi i (Finset.mem_univ _)) ((hZ _).1 i)
  have hXR : ∀ τ i j i' j' l, X τ i j l ≤ R * X τ i' j' l := fun τ i j i' j' l =>
    calc X τ i j l = ∑ p, calc_lgmet_weights_from_lognormal_mdf (M τ j') scatter y p * X τ i j l := by rw [← Finset.sum_mul, (hZ _).2, one_mul]
      _ ≤ ∑ p, calc_lgmet_weights_from_lognormal_mdf (M τ j') scatter y p * (R * flux p j' l) :=
          Finset.sum_le_sum fun p _ => mul_le_mul_of_nonneg_left (hXle τ p j' j l) ((hZ _).1 p)
      _ = R * X τ i' j' l := by
          rw [hX]; simp only [Finset.mul_sum]
          exact Finset.sum_congr rfl fun p _ => by ring
  have b7 : ∀ τ j, |M τ j| ≤ 7 := fun τ j => by
    rw [abs_le]
    exact interp_bounds (lgt_strictMono I.times I.start).monotone _ (-7) 7 (fun i => (abs_le.1 (hzt i)).1) (fun i => (abs_le.1 (hzt i)).2)
  set Δ := L * (|t_obs' - t_obs| / (t 0 * Real.log 10)) with hΔ
  have lite : ∀ i j, X t_obs' i j l ≤ (1 + (R - 1) * (35 / 96 * (Δ / scatter))) * X t_obs i j l := fun i j => by
    have h1 : |M t_obs' j - M t_obs j| ≤ Δ := C168_metallicity_at_birth I.times I.start I.resolved hL0 hL (a j)
    have h2 := weights_l1 (μ := M t_obs j) (μ' := M t_obs' j) I.width I.width hσ1 hσ1 (b7 _ _) (b7 _ _) I.mets I.low I.high
    have h3 := metShift_mono (σ := scatter) (σ' := scatter) h1 I.width
    have h4 : metShift Δ scatter scatter = 35 / 96 * (Δ / scatter) := by
      unfold metShift; rw [min_self, max_self, div_self I.width.ne']; ring
    have := mean_l1 (f := fun i => flux i j l) (R := R) (hZ _).2 (hZ _).2 (hZ _).1 (h2.trans (mul_le_mul_of_nonneg_left (h3.trans h4.le) (by norm_num))) (fun i => (hx i j l).le) (fun i i' => hR i j i' j l)
    have h5 := (abs_le.mp this).2
    show ∑ i, calc_lgmet_weights_from_lognormal_mdf (M t_obs' j) scatter y i * flux i j l ≤ (1 + (R - 1) * (35 / 96 * (Δ / scatter))) *
      ∑ i, calc_lgmet_weights_from_lognormal_mdf (M t_obs j) scatter y i * flux i j l
    linarith
  have time := sed_time_le (gal_lgmet := 0) (scatter := scatter) (y := y) (flux := X t_obs) I.times I.start I.resolved hB hF he (hZ 0) (hXp t_obs) (hXR t_obs) o o' hd hD hD' l
  have s0 := met_as_mix (sfr_min := SFR_MIN) (s := s) (flux := flux) I hzt
  have s1 := met_as_mix (sfr_min := SFR_MIN) (s := s) (flux := flux) I' hzt
  have hA' := ages_prob I'.times I'.start he (hd.trans_le hD')
  rw [s1, s0]
  have e0 : 0 ≤ (R - 1) * (35 / 96 * (Δ / scatter)) := by
    have := I.width
    have : 0 < t 0 := lt_trans (by norm_num) I.start
    have : 0 < Real.log 10 := Real.log_pos (by norm_num)
    have : 0 ≤ R - 1 := by linarith
    positivity
  have hmain : (calc_rest_sed_sfh_table_lognormal_mdf t s 0 scatter y a (X t_obs') t_obs').rest_sed l ≤ (1 + (R - 1) * (35 / 96 * (Δ / scatter))) *
      (calc_rest_sed_sfh_table_lognormal_mdf t s 0 scatter y a (X t_obs) t_obs').rest_sed l := by
    rw [sed_value (hZ 0).2 hA'.2, sed_value (hZ 0).2 hA'.2, mul_left_comm]
    refine mul_le_mul_of_nonneg_left ?_ (massFormed_pos _).le
    rw [Finset.mul_sum]
    refine Finset.sum_le_sum fun i _ => ?_
    rw [Finset.mul_sum]
    refine Finset.sum_le_sum fun j _ => ?_
    rw [mul_left_comm]
    exact mul_le_mul_of_nonneg_left (lite i j) (mul_nonneg ((hZ 0).1 i) (hA'.1 j))
  refine hmain.trans (mul_le_mul_of_nonneg_left ?_ (by linarith))
  exact time

/-- C168: **magnitudes depend on the observation time smoothly, with a metallicity history too**: the bound of `C168_observation_time`, plus the effect of the change of the metallicity
that stars of given age were born with. -/
theorem C168_observation_time_met {B F R L d z Om0 w0 wa h : ℝ} {q : ℕ} {wave : Fin (w + 2) → ℝ} {flux : Fin (k + 3) → Fin (m + 3) → Fin (w + 2) → ℝ} {fw ft : Fin (q + 1) → ℝ}
    (I : SedInputs t a y t_obs scatter) (I' : SedInputs t a y t_obs' scatter) (hB : ∀ i, max 1e-14 (s i) ≤ B)
    (hF : ∀ k : Fin (n + 1), t k.succ ≤ F * t k.castSucc ∧ 1 + Real.log (tableMass t s 1e-14 k.succ / tableMass t s 1e-14 k.castSucc) ≤ F)
    (hzt : ∀ i, |zt i| ≤ 7) (hσ1 : scatter ≤ 1) (hL0 : 0 ≤ L) (hL : ∀ i : Fin (n + 1), |zt i.succ - zt i.castSucc| ≤ L * (log10 (t i.succ) - log10 (t i.castSucc)))
    (hx : ∀ i j l, 0 < flux i j l) (hR : ∀ i j i' j' l, flux i j l ≤ R * flux i' j' l) (hd : 0 < d) (hD : d ≤ massInRange t s a t_obs) (hD' : d ≤ massInRange t s a t_obs')
    (hw : Monotone wave) (hf : GoodFilter fw ft) (hz : -1 < z) :
    let sed := fun t_obs => (calc_rest_sed_sfh_table_met_table t s zt scatter y a flux t_obs).rest_sed
    0 < obs_flux_ssp wave (sed t_obs) fw ft z / flux_ab0_at_10pc fw ft →
    |calc_obs_mag wave (sed t_obs') fw ft z Om0 w0 wa h - calc_obs_mag wave (sed t_obs) fw ft z Om0 w0 wa h| ≤
      1.09 * ((4 * m + 13) * R * (1e9 * B * F * |t_obs' - t_obs|) / d) + 1.09 * ((R - 1) * (35 / 96 * (L * (|t_obs' - t_obs| / (t 0 * Real.log 10)) / scatter))) := by
  intro sed hpos
  have u := sed_time_met_le I I' hB hF hzt hσ1 hL0 hL hx hR hd hD hD'
  have v := sed_time_met_le I' I hB hF hzt hσ1 hL0 hL hx hR hd hD' hD
  rw [abs_sub_comm t_obs t_obs'] at v
  have hR1 : 1 ≤ R := by
    have h1 := hR 0 0 0 0 0
    have h2 := hx 0 0 0
    by_contra hc
    nlinarith
  have hL' : 0 ≤ 1e9 * B * F := by
    have := C167_mass_lipschitz (by norm_num) I.times I.start I.resolved hB hF (τ := 1) (τ' := 2) one_pos (by norm_num)
    have h2 := massFormed_mono (s := s) (sfr_min := 1e-14) I.times I.start (by norm_num) one_pos (by norm_num : (1:ℝ) ≤ 2)
    linarith
  set e1 := (4 * m + 13) * R * (1e9 * B * F * |t_obs' - t_obs|) / d with he1
  set e2 := (R - 1) * (35 / 96 * (L * (|t_obs' - t_obs| / (t 0 * Real.log 10)) / scatter)) with he2
  have p1 : 0 ≤ e1 := by positivity
  have p2 : 0 ≤ e2 := by
    have := I.width
    have : 0 < t 0 := lt_trans (by norm_num) I.start
    have : 0 < Real.log 10 := Real.log_pos (by norm_num)
    have : 0 ≤ R - 1 := by linarith
    positivity
  have := (C168_mag_relative (f := sed t_obs) (g := sed t_obs') (e := e1 + e2 + e1 * e2) (Om0 := Om0) (w0 := w0) (wa := wa) (h := h) hw hf hz (by positivity)
    (fun l => (v l).trans_eq (by ring)) (fun l => (u l).trans_eq (by ring)) hpos).1
  refine this.trans ?_
  rw [show 1 + (e1 + e2 + e1 * e2) = (1 + e1) * (1 + e2) by ring, Real.logb_mul (by positivity) (by positivity)]
  linarith [mag_small p1, mag_small p2]
end time

/-- case: a star formation rate and a metallicity rising linearly from 1 Gyr on, observed at 13 Gyr -/
example := C166_metallicity (H := fun x => -2 + x / 20) (t₀ := 1) (T := 13.8) (by norm_num) (by norm_num) (by fun_prop)
lemma case_young_hist : (1:ℝ) < 13 - (10:ℝ) ^ get_lg_age_bin_edges (m := 0) caseA 0 := by have := case_young; norm_num [caseT] at this ⊢; linarith
lemma case_hist7 : ∀ x ∈ Icc (1:ℝ) 13.8, |-2 + x / 20| ≤ 7 := fun x hx => by rw [abs_le]; constructor <;> linarith [hx.1, hx.2]
example := C166_sed_met (m := 0) (k := 2) (w := 1) (S := fun x => 1 + x) (H := fun x => -2 + x / 20) (t₀ := 1) (T := 13.8) (t_obs := 13) (sfr_min := 1e-14) (g := caseA) (scatter := 0.2) (y := caseZ)
  (flux := fun _ _ _ => 1) (by norm_num) (by norm_num) (by norm_num) (by fun_prop) (fun x hx => by norm_num; linarith [hx.1]) (by fun_prop) case_hist7 caseA_mild case_young_hist (by norm_num)
  (by norm_num) (by norm_num) caseZ_mild caseZ_lo caseZ_hi 0
example := C168_history_met (m := 0) (k := 2) (w := 1) (S := fun x => 1 + x) (H := fun x => -2 + x / 20) (t₀ := 1) (T := 13.8) (t_obs := 13) (g := caseA) (scatter := 0.2) (y := caseZ)
  (wave := caseWave) (flux := fun _ _ _ => 1) (by norm_num) (by norm_num) (by fun_prop) (fun x hx => by norm_num; linarith [hx.1]) (by fun_prop) case_hist7 caseA_mild case_young_hist (by norm_num)
  (by norm_num) (by norm_num) caseZ_mild caseZ_lo caseZ_hi (fun _ _ _ => one_pos) caseWave_mono.monotone

section
attribute [local instance] Dtype.float64

/-- a metallicity rising by 0.1 dex from each time of the table to the next -/
noncomputable def caseRise : Fin 3 → ℝ := fun i => -2.5 + 0.1 * (i : ℕ)

lemma case_slope (i : Fin 2) : |caseRise i.succ - caseRise i.castSucc| ≤ 0.1 * (log10 (caseT i.succ) - log10 (caseT i.castSucc)) := by
  have h : ∀ k : Fin 3, log10 (caseT k) = (k : ℕ) := fun k => by
    unfold Jnp.log10 caseT
    rw [← Real.rpow_natCast]
    exact Real.logb_rpow (by norm_num) (by norm_num)
  rw [h, h]
  fin_cases i <;> norm_num [caseRise, abs_le]

lemma case_inputs_later : SedInputs (n := 1) (m := 0) (k := 2) caseT caseA caseZ 13.5 0.2 :=
  { case_sedInputs with
    young := by have := case_sedInputs.young; linarith
    old := by
      have := Real.rpow_pos_of_pos (show (0:ℝ) < 10 by norm_num) (get_lg_age_bin_edges (m := 0) caseA (Fin.last 3))
      norm_num [caseT, Fin.last] at this ⊢
      linarith }

/-- case: between observation at 13 and at 13.5 Gyr, the metallicity at birth changes by at most 0.03 dex -/
example (lgage : ℝ) : |interp (n := 1) (log10 (birthTime 13.5 lgage)) (fun i => log10 (caseT i)) caseRise - interp (n := 1) (log10 (birthTime 13 lgage)) (fun i => log10 (caseT i)) caseRise| ≤ 0.03 := by
  have := C168_metallicity_at_birth (n := 1) (t := caseT) (zt := caseRise) (t_obs := 13) (t_obs' := 13.5) (L := 0.1) caseT_mono caseT_zero caseT_resolved (by norm_num) case_slope lgage
  refine this.trans ?_
  have e : caseT 0 = 1 := by norm_num [caseT]
  have h10 := log10_bounds.1
  rw [e, one_mul, show |(13.5:ℝ) - 13| = 0.5 by norm_num [abs_of_pos]]
  have h : (0.5:ℝ) / Real.log 10 ≤ 0.3 := by rw [div_le_iff₀ (by linarith)]; linarith
  linarith

/-- case: flat SSP spectra, observed at 13 and at 13.5 Gyr -/
example : ∃ C, |calc_obs_mag (n := 1) (m := 2) caseWave (calc_rest_sed_sfh_table_met_table (n := 1) (k := 2) (m := 0) caseT caseS caseRise 0.2 caseZ caseA (fun _ _ _ => 1) 13.5).rest_sed caseFW caseFT (1 / 2) 0.3 (-1) 0 0.7 -
    calc_obs_mag (n := 1) (m := 2) caseWave (calc_rest_sed_sfh_table_met_table (n := 1) (k := 2) (m := 0) caseT caseS caseRise 0.2 caseZ caseA (fun _ _ _ => 1) 13).rest_sed caseFW caseFT (1 / 2) 0.3 (-1) 0 0.7| ≤ C := by
  obtain ⟨F, hF⟩ : ∃ F, ∀ k : Fin 2, caseT k.succ ≤ F * caseT k.castSucc ∧
      1 + Real.log (tableMass (n := 1) caseT caseS 1e-14 k.succ / tableMass (n := 1) caseT caseS 1e-14 k.castSucc) ≤ F := by
    refine ⟨max 10 (max (1 + Real.log (tableMass (n := 1) caseT caseS 1e-14 (Fin.succ 0) / tableMass (n := 1) caseT caseS 1e-14 (Fin.castSucc 0)))
      (1 + Real.log (tableMass (n := 1) caseT caseS 1e-14 (Fin.succ 1) / tableMass (n := 1) caseT caseS 1e-14 (Fin.castSucc 1)))), fun k => ⟨?_, ?_⟩⟩
    · have hk : caseT k.succ = 10 * caseT k.castSucc := by simp [caseT, pow_succ]; ring
      rw [hk]
      exact mul_le_mul_of_nonneg_right (le_max_left _ _) (t_pos caseT_mono caseT_zero _).le
    · fin_cases k
      · exact (le_max_left _ _).trans (le_max_right _ _)
      · exact (le_max_right _ _).trans (le_max_right _ _)
  have r1 := case_range 13 (by norm_num) (by norm_num)
  have r2 := case_range 13.5 (by norm_num) (by norm_num)
  have h7 : ∀ i, |caseRise i| ≤ 7 := fun i => by fin_cases i <;> norm_num [caseRise, abs_le]
  refine ⟨_, C168_observation_time_met (n := 1) (k := 2) (m := 0) (w := 1) (q := 2) (s := caseS) (a := caseA) (y := caseZ) (zt := caseRise) (flux := fun _ _ _ => 1) (t_obs := 13) (t_obs' := 13.5) (scatter := 0.2)
    (B := 3) (F := F) (R := 1) (L := 0.1) (d := min (massInRange (n := 1) (m := 0) caseT caseS caseA 13) (massInRange (n := 1) (m := 0) caseT caseS caseA 13.5)) case_sedInputs case_inputs_later
    (fun i => by fin_cases i <;> norm_num [caseS]) hF h7 (by norm_num) (by norm_num) case_slope (fun _ _ _ => one_pos) (fun _ _ _ _ _ => by norm_num) (lt_min r1 r2) (min_le_left _ _) (min_le_right _ _)
    caseWave_mono.monotone case_good (by norm_num) (case_detected fun l => ?_)⟩
  beta_reduce
  rw [(mix_form (n := 1) (k := 2) (m := 0) (zt := caseRise) (s := caseS) (μ := 0) case_sedInputs h7 l).2]
  have hA := C17_age_weights_prob_mild_partial (n := 1) (m := 0) caseT caseS caseA 13 caseT_mono caseT_zero caseT_resolved caseA_mild case_young case_old
  simp only [mul_one, (C21_lgmet_weights_prob_mild_partial _ _ case_sedInputs.width (k := 2) caseZ caseZ_mild caseZ_lo caseZ_hi).2, hA.2]
  exact massFormed_pos _
end

end Dsps.Props
