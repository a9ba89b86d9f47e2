import Verif.Props.Superpose
import Verif.Cases

/-! C144: how metallicity weights and spectra respond to the metallicity (`/repo/dsps/sed/metallicity_weights.py`,
`/repo/dsps/utils.py`, `/repo/dsps/sed/stellar_sed.py`). -/
namespace Dsps.Props
open Dsps.Utils Dsps.Lemmas Dsps.StellarAgeWeights Dsps.MetallicityWeights Dsps.SspWeights Dsps.Constants Jnp Spec Set
open scoped BigOperators

variable {n m k w : ℕ}

/-! ## moments of the kernel -/

/-- C144: **the scatter is the standard deviation** of the metallicity distribution, and the galaxy's metallicity its mean. -/
theorem C144_moments (μ σ : ℝ) (hσ : 0 < σ) :
    ∫ u in (μ - 3 * σ)..(μ + 3 * σ), u * triweight_gaussian u μ σ = μ ∧
    ∫ u in (μ - 3 * σ)..(μ + 3 * σ), (u - μ) ^ 2 * triweight_gaussian u μ σ = σ ^ 2 := by
  have hle : μ - 3 * σ ≤ μ + 3 * σ := by linarith
  have hk : ∀ u ∈ Set.uIcc (μ - 3 * σ) (μ + 3 * σ), triweight_gaussian u μ σ = 35 / (96 * σ) * (1 - (u - μ) ^ 2 / (9 * σ ^ 2)) ^ 3 := fun u hu => by
    rw [Set.uIcc_of_le hle] at hu
    exact (C02_triweight_density μ σ hσ).2.2.2 u (abs_le.mpr ⟨by linarith [hu.1], by linarith [hu.2]⟩)
  have e : ∀ u, HasDerivAt (fun u => (u - μ) / σ) (1 / σ) u := fun u => ((hasDerivAt_id u).sub_const μ).div_const σ
  constructor
  · have hd : ∀ u ∈ Set.uIcc (μ - 3 * σ) (μ + 3 * σ), HasDerivAt (fun u => μ * tw_cuml_kern u μ σ - σ * (105 / 256) * (1 - ((u - μ) / σ) ^ 2 / 9) ^ 4)
        (u * triweight_gaussian u μ σ) u := fun u hu => by
      have h1 := ((C02_triweight_density μ σ hσ).2.2.1 u).const_mul μ
      have h2 := (((((e u).pow 2).div_const 9).const_sub 1).pow 4).const_mul (σ * (105 / 256))
      refine (h1.sub h2).congr_deriv ?_
      rw [hk u hu]
      simp only [Pi.pow_apply]
      push_cast
      field_simp
      ring
    rw [intervalIntegral.integral_eq_sub_of_hasDerivAt hd ((continuous_id.mul (continuous_triweight_gaussian μ σ)).intervalIntegrable _ _)]
    rw [(C01_triweight_cdf μ σ hσ).2.2.2.1 _ le_rfl, (C01_triweight_cdf μ σ hσ).2.2.1 _ le_rfl]
    have e1 : (μ + 3 * σ - μ) / σ = 3 := by field_simp; ring
    have e2 : (μ - 3 * σ - μ) / σ = -3 := by field_simp; ring
    rw [e1, e2]; norm_num
  · have hd : ∀ u ∈ Set.uIcc (μ - 3 * σ) (μ + 3 * σ), HasDerivAt (fun u => σ ^ 2 * (35 / 96) *
        (((u - μ) / σ) ^ 3 / 3 - ((u - μ) / σ) ^ 5 / 15 + ((u - μ) / σ) ^ 7 / 189 - ((u - μ) / σ) ^ 9 / 6561))
        ((u - μ) ^ 2 * triweight_gaussian u μ σ) u := fun u hu => by
      have h := (((((e u).pow 3).div_const 3).sub (((e u).pow 5).div_const 15)).add (((e u).pow 7).div_const 189)).sub (((e u).pow 9).div_const 6561)
      refine (h.const_mul (σ ^ 2 * (35 / 96))).congr_deriv ?_
      rw [hk u hu]
      push_cast
      field_simp
      ring
    rw [intervalIntegral.integral_eq_sub_of_hasDerivAt hd ((((continuous_id.sub continuous_const).pow 2).mul (continuous_triweight_gaussian μ σ)).intervalIntegrable _ _)]
    have e1 : (μ + 3 * σ - μ) / σ = 3 := by field_simp; ring
    have e2 : (μ - 3 * σ - μ) / σ = -3 := by field_simp; ring
    rw [e1, e2]; ring

example := C144_moments (-2.6) 0.2 (by norm_num)

/-! ## stochastic dominance -/

/-- the part of the weights in the bins up to and including `j` -/
def upTo (v : Fin (n + 1) → ℝ) (j : Fin (n + 1)) : ℝ := ∑ i, if i ≤ j then v i else 0

lemma upTo_zero (v : Fin (n + 1) → ℝ) : upTo v 0 = v 0 := by
  unfold upTo
  rw [Finset.sum_eq_single 0]
  · simp
  · intro i _ hi; rw [if_neg]; simpa using hi
  · simp

lemma upTo_succ (v : Fin (n + 2) → ℝ) (j : Fin (n + 1)) : upTo v j.succ = upTo v j.castSucc + v j.succ := by
  unfold upTo
  rw [← Finset.sum_filter, ← Finset.sum_filter,
    show Finset.univ.filter (· ≤ j.succ) = insert j.succ (Finset.univ.filter (· ≤ j.castSucc)) from ?_, Finset.sum_insert, add_comm]
  · simp [Fin.le_def]
  · ext i
    simp only [Finset.mem_filter, Finset.mem_univ, true_and, Finset.mem_insert, Fin.le_def, Fin.ext_iff, Fin.val_succ, Fin.val_castSucc]
    omega

lemma upTo_last (v : Fin (n + 1) → ℝ) : upTo v (Fin.last n) = ∑ i, v i := by
  unfold upTo; simp [Fin.le_last]

lemma upTo_telescope (f : Fin (n + 2) → ℝ) (j : Fin (n + 1)) : upTo (fun i : Fin (n + 1) => f i.castSucc - f i.succ) j = f 0 - f j.succ := by
  cases n with
  | zero => have : j = 0 := Fin.fin_one_eq_zero j
            subst this; rw [upTo_zero]; simp
  | succ n =>
    induction j using Fin.induction with
    | zero => rw [upTo_zero]; simp
    | succ j ih => rw [upTo_succ, ih, Fin.succ_castSucc]; ring

/-- summation by parts -/
lemma sum_by_parts (f d : Fin (n + 1) → ℝ) :
    ∑ i, f i * d i = f (Fin.last n) * ∑ i, d i - ∑ j : Fin n, (f j.succ - f j.castSucc) * upTo d j.castSucc := by
  induction n with
  | zero => simp
  | succ n ih =>
    have h := ih (fun i => f i.castSucc) (fun i => d i.castSucc)
    rw [Fin.sum_univ_castSucc (fun i => f i * d i), h, Fin.sum_univ_castSucc (fun i => d i),
      Fin.sum_univ_castSucc (fun j : Fin (n + 1) => (f j.succ - f j.castSucc) * upTo d j.castSucc)]
    have e : ∀ j : Fin (n + 1), upTo (fun i : Fin (n + 1) => d i.castSucc) j = upTo d j.castSucc := fun j => by
      unfold upTo
      rw [Fin.sum_univ_castSucc (fun i => if i ≤ j.castSucc then d i else 0)]
      have h1 : ¬ Fin.last (n + 1) ≤ j.castSucc := not_le.mpr (Fin.castSucc_lt_last j)
      rw [if_neg h1, add_zero]
      rfl
    simp only [e]
    have e2 : upTo d (Fin.last n).castSucc = ∑ i : Fin (n + 1), d i.castSucc := by rw [← e, upTo_last]
    rw [e2]
    simp only [Fin.succ_last, Fin.succ_castSucc]
    ring

/-- weights with less in every initial run of bins have the larger mean of every increasing function -/
lemma mean_of_dominance {v v' f : Fin (n + 1) → ℝ} (h1 : ∑ i, v i = ∑ i, v' i) (hd : ∀ j, upTo v' j ≤ upTo v j) (hf : Monotone f) :
    ∑ i, f i * v i ≤ ∑ i, f i * v' i := by
  rw [sum_by_parts, sum_by_parts, h1]
  have : ∑ j : Fin n, (f j.succ - f j.castSucc) * upTo v' j.castSucc ≤ ∑ j : Fin n, (f j.succ - f j.castSucc) * upTo v j.castSucc :=
    Finset.sum_le_sum fun j _ => mul_le_mul_of_nonneg_left (hd _) (sub_nonneg.mpr (hf (Fin.castSucc_lt_succ (i := j)).le))
  linarith

/-- the triweight kernel has monotone likelihood ratios -/
lemma twc_mlr {a s d : ℝ} (hs : 0 ≤ s) (hd : 0 ≤ d) : twc a * twc (a + s + d) ≤ twc (a + d) * twc (a + s) := by
  rw [twc_eq_max, twc_eq_max, twc_eq_max, twc_eq_max]
  set g : ℝ → ℝ := fun z => max 0 (1 - (z / 3) ^ 2) with hg
  have g0 : ∀ z, 0 ≤ g z := fun z => le_max_left _ _
  have key : g a * g (a + s + d) ≤ g (a + d) * g (a + s) := by
    rcases le_or_gt (1 - (a / 3) ^ 2) 0 with h | h
    · have : g a = 0 := max_eq_left h
      rw [this, zero_mul]; exact mul_nonneg (g0 _) (g0 _)
    rcases le_or_gt (1 - ((a + s + d) / 3) ^ 2) 0 with h' | h'
    · have : g (a + s + d) = 0 := max_eq_left h'
      rw [this, mul_zero]; exact mul_nonneg (g0 _) (g0 _)
    have r1 : -3 < a := by nlinarith
    have r2 : a + s + d < 3 := by nlinarith
    have p1 : 0 < 1 - ((a + d) / 3) ^ 2 := by nlinarith
    have p2 : 0 < 1 - ((a + s) / 3) ^ 2 := by nlinarith
    have e1 : g a = 1 - (a / 3) ^ 2 := max_eq_right h.le
    have e2 : g (a + s + d) = 1 - ((a + s + d) / 3) ^ 2 := max_eq_right h'.le
    have e3 : g (a + d) = 1 - ((a + d) / 3) ^ 2 := max_eq_right p1.le
    have e4 : g (a + s) = 1 - ((a + s) / 3) ^ 2 := max_eq_right p2.le
    rw [e1, e2, e3, e4]
    have i1 : (1 - (a / 3) ^ 2) * (1 - ((a + s + d) / 3) ^ 2) = (1 + a * (a + s + d) / 9) ^ 2 - ((2 * a + s + d) / 3) ^ 2 := by ring
    have i2 : (1 - ((a + d) / 3) ^ 2) * (1 - ((a + s) / 3) ^ 2) = (1 + (a * (a + s + d) + s * d) / 9) ^ 2 - ((2 * a + s + d) / 3) ^ 2 := by ring
    rw [i1, i2]
    have sd : 0 ≤ s * d := mul_nonneg hs hd
    have pos : 0 < 1 + a * (a + s + d) / 9 := by
      have : -9 < a * (a + s + d) := by
        rcases le_total 0 a with h0 | h0
        · nlinarith [mul_nonneg h0 (by linarith : 0 ≤ a + s + d)]
        · rcases le_total 0 (a + s + d) with h1 | h1 <;> nlinarith
      linarith
    nlinarith
  have := pow_le_pow_left₀ (mul_nonneg (g0 _) (g0 _)) key 3
  rw [mul_pow, mul_pow] at this
  nlinarith

/-- of two bins the higher gains relative to the lower as the centre moves up -/
lemma mass_mlr {μ μ' σ a b c : ℝ} (hσ : 0 < σ) (hμ : μ ≤ μ') (hab : a ≤ b) (hbc : b ≤ c) :
    (∫ u in a..b, triweight_gaussian u μ' σ) * (∫ u in b..c, triweight_gaussian u μ σ) ≤
      (∫ u in a..b, triweight_gaussian u μ σ) * ∫ u in b..c, triweight_gaussian u μ' σ := by
  have ci := fun (x : ℝ) (p q : ℝ) => (continuous_triweight_gaussian x σ).intervalIntegrable (μ := MeasureTheory.volume) p q
  have pt : ∀ x y, x ≤ y → triweight_gaussian x μ' σ * triweight_gaussian y μ σ ≤ triweight_gaussian x μ σ * triweight_gaussian y μ' σ := fun x y hxy => by
    rw [triweight_gaussian_eq, triweight_gaussian_eq, triweight_gaussian_eq, triweight_gaussian_eq, div_mul_div_comm, div_mul_div_comm]
    refine div_le_div_of_nonneg_right ?_ (mul_pos hσ hσ).le
    have := twc_mlr (a := (x - μ') / σ) (s := (y - x) / σ) (d := (μ' - μ) / σ) (div_nonneg (by linarith) hσ.le) (div_nonneg (by linarith) hσ.le)
    rw [show (x - μ') / σ + (y - x) / σ + (μ' - μ) / σ = (y - μ) / σ by field_simp; ring, show (x - μ') / σ + (μ' - μ) / σ = (x - μ) / σ by field_simp; ring,
      show (x - μ') / σ + (y - x) / σ = (y - μ') / σ by field_simp; ring] at this
    exact this
  have step : ∀ y ∈ Icc b c, (∫ u in a..b, triweight_gaussian u μ' σ) * triweight_gaussian y μ σ ≤ (∫ u in a..b, triweight_gaussian u μ σ) * triweight_gaussian y μ' σ := fun y hy => by
    rw [← intervalIntegral.integral_mul_const, ← intervalIntegral.integral_mul_const]
    exact intervalIntegral.integral_mono_on hab ((ci μ' a b).mul_const _) ((ci μ a b).mul_const _) fun x hx => pt x y (hx.2.trans hy.1)
  rw [← intervalIntegral.integral_const_mul, ← intervalIntegral.integral_const_mul]
  exact intervalIntegral.integral_mono_on hbc ((ci μ b c).const_mul _) ((ci μ' b c).const_mul _) step

/-- cumulated weights of a single point -/
lemma upTo_triweights {x sig : ℝ} (hs : 0 < sig) {e : Fin (n + 2) → ℝ}
    (hov : ∫ u in (e 0)..(e (Fin.last (n + 1))), triweight_gaussian u x sig ≠ 0) (j : Fin (n + 1)) :
    upTo (get_triweights_singlepoint x sig e) j = (∫ u in (e 0)..(e j.succ), triweight_gaussian u x sig) / ∫ u in (e 0)..(e (Fin.last (n + 1))), triweight_gaussian u x sig := by
  have h1 : get_triweights_singlepoint x sig e = fun i => (-tw_cuml_kern (e i.castSucc) x sig / ∫ u in (e 0)..(e (Fin.last (n + 1))), triweight_gaussian u x sig) -
      (-tw_cuml_kern (e i.succ) x sig / ∫ u in (e 0)..(e (Fin.last (n + 1))), triweight_gaussian u x sig) := funext fun i => by
    rw [C04_triweights_overlap x sig hs e hov i, integral_triweight_gaussian _ _ _ _ hs.ne']; ring
  rw [h1, upTo_telescope (fun i => -tw_cuml_kern (e i) x sig / ∫ u in (e 0)..(e (Fin.last (n + 1))), triweight_gaussian u x sig), integral_triweight_gaussian x sig _ (e j.succ) hs.ne']
  ring

/-- no overlap means three widths away -/
lemma no_overlap {x sig a b : ℝ} (hs : 0 < sig) (hab : a < b) (h : ∫ u in a..b, triweight_gaussian u x sig = 0) : x + 3 * sig ≤ a ∨ b ≤ x - 3 * sig := by
  by_contra hc
  push Not at hc
  rw [integral_triweight_gaussian _ _ _ _ hs.ne', tw_cuml_kern_eq, tw_cuml_kern_eq] at h
  have h1 : (a - x) / sig < 3 := by rw [div_lt_iff₀ hs]; linarith
  have h2 : -3 < (b - x) / sig := by rw [lt_div_iff₀ hs]; linarith
  have h3 : (a - x) / sig < (b - x) / sig := by gcongr
  have hm : twC ((a - x) / sig) ≤ twC (max (-3) ((a - x) / sig)) := twC_mono (le_max_right _ _)
  have hM : twC (min 3 ((b - x) / sig)) ≤ twC ((b - x) / sig) := twC_mono (min_le_right _ _)
  have : twC (max (-3) ((a - x) / sig)) < twC (min 3 ((b - x) / sig)) := by
    apply twC_strictMonoOn
    · exact ⟨le_max_left _ _, max_le (by norm_num) h1.le⟩
    · exact ⟨le_min (by norm_num) h2.le, min_le_left _ _⟩
    · exact max_lt (lt_min (by norm_num) h2) (lt_min h1 h3)
  linarith

lemma triweights_dominance {x x' sig : ℝ} (hs : 0 < sig) (hx : x ≤ x') {e : Fin (n + 2) → ℝ} (he : Monotone e) (hlt : e 0 < e (Fin.last (n + 1))) (j : Fin (n + 1)) :
    upTo (get_triweights_singlepoint x' sig e) j ≤ upTo (get_triweights_singlepoint x sig e) j := by
  have hp := C04_triweights_prob x sig hs e he hlt
  have hp' := C04_triweights_prob x' sig hs e he hlt
  have le1 : ∀ {v : Fin (n + 1) → ℝ}, IsProbVector v → upTo v j ≤ 1 := fun {v} hv => by
    rw [← hv.2]
    exact Finset.sum_le_sum fun i _ => by split_ifs; exacts [le_rfl, hv.1 i]
  have ge0 : ∀ {v : Fin (n + 1) → ℝ}, IsProbVector v → 0 ≤ upTo v j := fun {v} hv =>
    Finset.sum_nonneg fun i _ => by split_ifs; exacts [hv.1 i, le_rfl]
  have first : ∀ {y}, y + 3 * sig ≤ e 0 → upTo (get_triweights_singlepoint y sig e) j = 1 := fun {y} hy => by
    rw [(C04_triweights_outside y sig hs e he hlt).1 hy]
    unfold upTo
    rw [Finset.sum_eq_single 0]
    · simp
    · intro i _ hi; simp [hi]
    · simp
  have final : ∀ {y}, e (Fin.last (n + 1)) ≤ y - 3 * sig → upTo (get_triweights_singlepoint y sig e) j = if j = Fin.last n then 1 else 0 := fun {y} hy => by
    rw [(C04_triweights_outside y sig hs e he hlt).2 hy]
    unfold upTo
    rw [Finset.sum_eq_single (Fin.last n)]
    · simp [Fin.last_le_iff]
    · intro i _ hi; simp [hi]
    · simp
  by_cases h1 : ∫ u in (e 0)..(e (Fin.last (n + 1))), triweight_gaussian u x sig = 0
  · rcases no_overlap hs hlt h1 with h | h
    · rw [first h]; exact le1 hp'
    · rw [final h, final (by linarith)]
  by_cases h2 : ∫ u in (e 0)..(e (Fin.last (n + 1))), triweight_gaussian u x' sig = 0
  · rcases no_overlap hs hlt h2 with h | h
    · rw [first h, first (by linarith)]
    · by_cases hj : j = Fin.last n
      · rw [hj, upTo_last, upTo_last, hp.2, hp'.2]
      · rw [final h, if_neg hj]; exact ge0 hp
  rw [upTo_triweights hs h1, upTo_triweights hs h2]
  have split : ∀ y, ∫ u in (e 0)..(e (Fin.last (n + 1))), triweight_gaussian u y sig =
      (∫ u in (e 0)..(e j.succ), triweight_gaussian u y sig) + ∫ u in (e j.succ)..(e (Fin.last (n + 1))), triweight_gaussian u y sig := fun y =>
    (intervalIntegral.integral_add_adjacent_intervals ((continuous_triweight_gaussian y sig).intervalIntegrable _ _)
      ((continuous_triweight_gaussian y sig).intervalIntegrable _ _)).symm
  have nn : ∀ y a b, a ≤ b → 0 ≤ ∫ u in a..b, triweight_gaussian u y sig := fun y a b hab =>
    intervalIntegral.integral_nonneg hab fun u _ => (C02_triweight_density y sig hs).1 u
  have p1 := lt_of_le_of_ne (nn x _ _ hlt.le) (Ne.symm h1)
  have p2 := lt_of_le_of_ne (nn x' _ _ hlt.le) (Ne.symm h2)
  have key := mass_mlr (a := e 0) (b := e j.succ) (c := e (Fin.last (n + 1))) hs hx (he (Fin.zero_le _)) (he (Fin.le_last _))
  rw [div_le_div_iff₀ p2 p1, split x, split x']
  nlinarith

/-- C144: **raising the metallicity moves the weights up**: for every number of SSP metallicities, counted from the lowest, the total weight on them never grows when the galaxy's metallicity grows; whatever the
scatter, also at and beyond the ends of the grid.  Hence the weighted mean of every quantity that increases along the metallicity grid increases with the galaxy's metallicity. -/
theorem C144_dominance {μ μ' σ : ℝ} {z : Fin (k + 3) → ℝ} (hσ : 0 < σ) (hμ : μ ≤ μ') (hz : MildlySpaced z) (hlo : -10 < z 0) (hhi : z (Fin.last (k + 2)) < 10) :
    (∀ j, ∑ i, (if i ≤ j then calc_lgmet_weights_from_lognormal_mdf μ' σ z i else 0) ≤ ∑ i, if i ≤ j then calc_lgmet_weights_from_lognormal_mdf μ σ z i else 0) ∧
    ∀ f : Fin (k + 3) → ℝ, Monotone f →
      ∑ i, f i * calc_lgmet_weights_from_lognormal_mdf μ σ z i ≤ ∑ i, f i * calc_lgmet_weights_from_lognormal_mdf μ' σ z i := by
  have he := (lgmet_edges_mono z hz hlo hhi).monotone
  have hlt : get_bin_edges z LGMET_LO LGMET_HI 0 < get_bin_edges z LGMET_LO LGMET_HI (Fin.last (k + 3)) := lgmet_edges_mono z hz hlo hhi (Fin.last_pos)
  have hd := fun j => triweights_dominance hσ hμ he hlt j
  refine ⟨hd, fun f hf => mean_of_dominance ?_ hd hf⟩
  have h1 := C21_lgmet_weights_prob_mild_partial μ σ hσ z hz hlo hhi
  have h2 := C21_lgmet_weights_prob_mild_partial μ' σ hσ z hz hlo hhi
  rw [h1.2, h2.2]

/-! ## the mean of the weights and the effect of the scatter -/

lemma sum_adjacent {e : Fin (n + 1) → ℝ} {g : ℝ → ℝ} (hg : Continuous g) :
    ∑ i : Fin n, ∫ u in (e i.castSucc)..(e i.succ), g u = ∫ u in (e 0)..(e (Fin.last n)), g u := by
  have h : ∀ a b, ∫ u in a..b, g u = (∫ u in (0:ℝ)..b, g u) - ∫ u in (0:ℝ)..a, g u := fun a b =>
    (intervalIntegral.integral_interval_sub_left (hg.intervalIntegrable _ _) (hg.intervalIntegrable _ _)).symm
  simp only [h (e _) (e _)]
  exact sum_telescope fun i => ∫ u in (0:ℝ)..(e i), g u

/-- the kernel beyond its support -/
lemma integral_support {μ σ a b : ℝ} (hσ : 0 < σ) (ha : a ≤ μ - 3 * σ) (hb : μ + 3 * σ ≤ b) {g : ℝ → ℝ} (hg : Continuous g) :
    ∫ u in a..b, g u * triweight_gaussian u μ σ = ∫ u in (μ - 3 * σ)..(μ + 3 * σ), g u * triweight_gaussian u μ σ := by
  have hc : Continuous fun u => g u * triweight_gaussian u μ σ := hg.mul (continuous_triweight_gaussian μ σ)
  have ii := fun p q => hc.intervalIntegrable (μ := MeasureTheory.volume) p q
  have zero : ∀ p q, p ≤ q → (∀ u ∈ Ioo p q, 3 * σ < |u - μ|) → ∫ u in p..q, g u * triweight_gaussian u μ σ = 0 := fun p q hpq h => by
    rw [intervalIntegral.integral_of_le hpq, MeasureTheory.integral_Ioc_eq_integral_Ioo]
    rw [MeasureTheory.setIntegral_congr_fun (g := fun _ => (0:ℝ)) measurableSet_Ioo fun u hu => by
      show g u * triweight_gaussian u μ σ = 0
      rw [(C02_triweight_density μ σ hσ).2.1 u (h u hu), mul_zero]]
    simp
  rw [← intervalIntegral.integral_add_adjacent_intervals (ii a (μ - 3 * σ)) (ii (μ - 3 * σ) b),
    ← intervalIntegral.integral_add_adjacent_intervals (ii (μ - 3 * σ) (μ + 3 * σ)) (ii (μ + 3 * σ) b),
    zero _ _ ha (fun u hu => lt_abs.mpr (Or.inr (by linarith [hu.2]))), zero _ _ hb (fun u hu => lt_abs.mpr (Or.inl (by linarith [hu.1])))]
  ring

/-- weights of a galaxy well within the limits -/
lemma weight_inside {μ σ : ℝ} {z : Fin (k + 3) → ℝ} (hσ : 0 < σ) (hl : -10 ≤ μ - 3 * σ) (hh : μ + 3 * σ ≤ 10) :
    (∫ u in (get_bin_edges z LGMET_LO LGMET_HI 0)..(get_bin_edges z LGMET_LO LGMET_HI (Fin.last (k + 3))), triweight_gaussian u μ σ) = 1 := by
  rw [(C05_edges_limits z LGMET_LO LGMET_HI).1, (C05_edges_limits z LGMET_LO LGMET_HI).2, integral_triweight_gaussian _ _ _ _ hσ.ne',
    (C01_triweight_cdf μ σ hσ).2.2.2.1 _ (by norm_num [LGMET_HI]; exact hh), (C01_triweight_cdf μ σ hσ).2.2.1 _ (by unfold LGMET_LO; linarith)]
  norm_num

/-- C144: **the mean metallicity of the weights is the galaxy's metallicity** up to the largest spacing of the SSP grid, for every galaxy whose distribution lies within the grid. -/
theorem C144_mean {μ σ δ : ℝ} {z : Fin (k + 3) → ℝ} (hσ : 0 < σ) (hz : MildlySpaced z) (hlo : -10 < z 0) (hhi : z (Fin.last (k + 2)) < 10)
    (hδ : ∀ i : Fin (k + 2), z i.succ - z i.castSucc ≤ δ) (h0 : z 0 ≤ μ - 3 * σ) (h1 : μ + 3 * σ ≤ z (Fin.last (k + 2))) :
    |∑ i, z i * calc_lgmet_weights_from_lognormal_mdf μ σ z i - μ| ≤ δ := by
  set e := get_bin_edges z LGMET_LO LGMET_HI with he
  have hem := lgmet_edges_mono z hz hlo hhi
  have hbr := (C05_edges_bracket_partial z hz LGMET_LO LGMET_HI (by norm_num [LGMET_LO]; exact hlo) (by norm_num [LGMET_HI]; exact hhi)).2
  have tot := weight_inside (z := z) hσ (by linarith : -10 ≤ μ - 3 * σ) (by linarith)
  have hcont := continuous_triweight_gaussian μ σ
  have hw : ∀ i, calc_lgmet_weights_from_lognormal_mdf μ σ z i = ∫ u in (e i.castSucc)..(e i.succ), triweight_gaussian u μ σ := fun i => by
    have := C04_triweights_overlap μ σ hσ e (by rw [tot]; norm_num) i
    rw [tot, div_one] at this
    exact this
  have hmu : μ = ∑ i : Fin (k + 3), ∫ u in (e i.castSucc)..(e i.succ), u * triweight_gaussian u μ σ := by
    rw [sum_adjacent (g := fun u => u * triweight_gaussian u μ σ) (continuous_id.mul hcont), he, (C05_edges_limits z LGMET_LO LGMET_HI).1, (C05_edges_limits z LGMET_LO LGMET_HI).2,
      integral_support (g := fun u => u) hσ (by norm_num [LGMET_LO]; linarith) (by norm_num [LGMET_HI]; linarith) continuous_id]
    exact (C144_moments μ σ hσ).1.symm
  have h2 : ∑ i, z i * calc_lgmet_weights_from_lognormal_mdf μ σ z i - μ = ∑ i : Fin (k + 3), ∫ u in (e i.castSucc)..(e i.succ), (z i - u) * triweight_gaussian u μ σ := by
    conv_lhs => rw [hmu]
    rw [← Finset.sum_sub_distrib]
    refine Finset.sum_congr rfl fun i _ => ?_
    rw [← hmu, hw, ← intervalIntegral.integral_const_mul, ← intervalIntegral.integral_sub (f := fun u => z i * triweight_gaussian u μ σ) (g := fun u => u * triweight_gaussian u μ σ) ((continuous_const.mul hcont).intervalIntegrable _ _) ((continuous_id.mul hcont).intervalIntegrable _ _)]
    exact intervalIntegral.integral_congr fun u _ => by ring
  rw [h2]
  have hs : ∑ i, calc_lgmet_weights_from_lognormal_mdf μ σ z i = 1 := (C21_lgmet_weights_prob_mild_partial μ σ hσ z hz hlo hhi).2
  calc _ ≤ ∑ i : Fin (k + 3), |∫ u in (e i.castSucc)..(e i.succ), (z i - u) * triweight_gaussian u μ σ| := Finset.abs_sum_le_sum_abs _ _
    _ ≤ ∑ i : Fin (k + 3), δ * calc_lgmet_weights_from_lognormal_mdf μ σ z i := Finset.sum_le_sum fun i _ => ?_
    _ = δ := by rw [← Finset.mul_sum, hs, mul_one]
  have hle : e i.castSucc ≤ e i.succ := (hem (Fin.castSucc_lt_succ (i := i))).le
  have pt : ∀ u ∈ Icc (e i.castSucc) (e i.succ), |z i - u| * triweight_gaussian u μ σ ≤ δ * triweight_gaussian u μ σ := fun u hu => by
    have nn := (C02_triweight_density μ σ hσ).1 u
    by_cases hsup : 3 * σ < |u - μ|
    · rw [(C02_triweight_density μ σ hσ).2.1 u hsup]; simp
    have hab := abs_le.mp (not_lt.mp hsup)
    refine mul_le_mul_of_nonneg_right (abs_le.mpr ⟨?_, ?_⟩) nn
    · rcases Fin.eq_castSucc_or_eq_last i with ⟨j, rfl⟩ | rfl
      · have a1 := (hbr j.succ).1
        rw [← Fin.succ_castSucc] at a1
        linarith [hδ j, hu.2]
      · have := hδ (Fin.last (k + 1))
        rw [Fin.succ_last] at this
        have m := hz.1.monotone (Fin.castSucc_lt_succ (i := Fin.last (k + 1))).le
        rw [Fin.succ_last] at m
        linarith
    · rcases Fin.eq_zero_or_eq_succ i with rfl | ⟨j, rfl⟩
      · have := hδ 0
        have m := hz.1.monotone (Fin.castSucc_lt_succ (i := (0 : Fin (k + 2)))).le
        simp only [Fin.castSucc_zero] at m this
        linarith
      · have a1 := (hbr j.castSucc).2
        rw [Fin.succ_castSucc] at a1
        linarith [hδ j, hu.1]
  calc _ ≤ ∫ u in (e i.castSucc)..(e i.succ), |z i - u| * triweight_gaussian u μ σ := by
        refine (intervalIntegral.abs_integral_le_integral_abs hle).trans_eq (intervalIntegral.integral_congr fun u _ => ?_)
        show |(z i - u) * triweight_gaussian u μ σ| = _
        rw [abs_mul, abs_of_nonneg ((C02_triweight_density μ σ hσ).1 u)]
    _ ≤ ∫ u in (e i.castSucc)..(e i.succ), δ * triweight_gaussian u μ σ :=
        intervalIntegral.integral_mono_on hle ((((continuous_const.sub continuous_id).abs).mul hcont).intervalIntegrable _ _) ((continuous_const.mul hcont).intervalIntegrable _ _) pt
    _ = _ := by rw [intervalIntegral.integral_const_mul, ← hw]

/-- C144: **a larger scatter spreads the weights**: in the bins below the galaxy's metallicity the cumulated weight grows with the scatter, above it the weight beyond grows (the cumulated weight shrinks). -/
theorem C144_scatter {μ σ σ' : ℝ} {z : Fin (k + 3) → ℝ} (hσ : 0 < σ) (hσ' : σ ≤ σ') (hl : -10 ≤ μ - 3 * σ') (hh : μ + 3 * σ' ≤ 10) (j : Fin (k + 3)) :
    let upto := fun σ => ∑ i, if i ≤ j then calc_lgmet_weights_from_lognormal_mdf μ σ z i else 0
    upto σ = tw_cuml_kern (get_bin_edges z (-10) 10 j.succ) μ σ ∧
    (get_bin_edges z (-10) 10 j.succ ≤ μ → upto σ ≤ upto σ') ∧ (μ ≤ get_bin_edges z (-10) 10 j.succ → upto σ' ≤ upto σ) := by
  have eL : (-10 : ℝ) = LGMET_LO := by norm_num [LGMET_LO]
  have eH : (10 : ℝ) = LGMET_HI := by norm_num [LGMET_HI]
  have key : ∀ x, 0 < x → -10 ≤ μ - 3 * x → μ + 3 * x ≤ 10 → (∑ i, if i ≤ j then calc_lgmet_weights_from_lognormal_mdf μ x z i else 0) = tw_cuml_kern (get_bin_edges z (-10) 10 j.succ) μ x :=
    fun x hx a b => by
    have tot := weight_inside (z := z) hx a b
    have := upTo_triweights (x := μ) (e := get_bin_edges z LGMET_LO LGMET_HI) hx (by rw [tot]; norm_num) j
    rw [tot, div_one, integral_triweight_gaussian _ _ _ _ hx.ne', (C05_edges_limits z LGMET_LO LGMET_HI).1,
      (C01_triweight_cdf μ x hx).2.2.1 LGMET_LO (by unfold LGMET_LO; linarith), sub_zero] at this
    rw [eL, eH]
    exact this
  have hp : 0 < σ' := hσ.trans_le hσ'
  intro upto
  have k1 : upto σ = _ := key σ hσ (by linarith) (by linarith)
  have k2 : upto σ' = _ := key σ' hp hl hh
  refine ⟨k1, fun h => ?_, fun h => ?_⟩ <;> rw [k1, k2, tw_cuml_kern_eq, tw_cuml_kern_eq] <;> refine twC_mono ?_
  · rw [div_le_div_iff₀ hσ hp]; nlinarith
  · rw [div_le_div_iff₀ hp hσ]; nlinarith

/-! ## spectra -/

section sed
variable [Dtype] {t s : Fin (n + 2) → ℝ} {a : Fin (m + 3) → ℝ} {z : Fin (k + 3) → ℝ} {flux : Fin (k + 3) → Fin (m + 3) → Fin w → ℝ} {t_obs scatter μ μ' : ℝ}

/-- C144: **where metal-rich populations are fainter, a metal-rich galaxy is fainter**: if at one wavelength, at every age, the SSP flux decreases along the metallicity grid, then the galaxy's flux there
decreases with its metallicity, for every star formation history (and increases if it increases). -/
theorem C144_sed (H : SedInputs t a z t_obs scatter) (hμ : μ ≤ μ') (l : Fin w) :
    let sed := fun μ => (calc_rest_sed_sfh_table_lognormal_mdf t s μ scatter z a flux t_obs).rest_sed l
    ((∀ j, Antitone fun i => flux i j l) → sed μ' ≤ sed μ) ∧ ((∀ j, Monotone fun i => flux i j l) → sed μ ≤ sed μ') := by
  intro sed
  have hd := (C144_dominance (z := z) H.width hμ H.mets H.low H.high).2
  have pos : 0 ≤ massFormed t s 1e-14 t_obs / (massFormed t s 1e-14 (birthTime t_obs (get_lg_age_bin_edges a 0)) -
        massFormed t s 1e-14 (birthTime t_obs (get_lg_age_bin_edges a (Fin.last (m + 3))))) := div_nonneg (massFormed_pos _).le (H.mass_pos s).le
  refine ⟨fun h => ?_, fun h => ?_⟩ <;> simp only [sed] <;> rw [sed_raw H s l, sed_raw H s l] <;>
    refine mul_le_mul_of_nonneg_left (Finset.sum_le_sum fun j _ => mul_le_mul_of_nonneg_left ?_ (H.raw_nonneg s j)) pos <;> unfold unitLight
  · have := hd (fun i => - flux i j l) fun p q hpq => neg_le_neg (h j hpq)
    simp only [neg_mul, Finset.sum_neg_distrib, neg_le_neg_iff] at this
    simp only [mul_comm (calc_lgmet_weights_from_lognormal_mdf _ _ _ _)]
    exact this
  · have := hd (fun i => flux i j l) (h j)
    simp only [mul_comm (calc_lgmet_weights_from_lognormal_mdf _ _ _ _)]
    exact this

/-- C144: the same for a metallicity history: **a galaxy that is more metal-rich at every time** of the table is fainter where metal-rich populations are fainter. -/
theorem C144_sed_met_table {zt zt' : Fin (n + 2) → ℝ} (H : SedInputs t a z t_obs scatter) (hzt : ∀ i, zt i ≤ zt' i) (hlo : ∀ i, -10 ≤ zt i) (hhi : ∀ i, zt' i ≤ 10) (l : Fin w) :
    let sed := fun zt => (calc_rest_sed_sfh_table_met_table t s zt scatter z a flux t_obs).rest_sed l
    ((∀ j, Antitone fun i => flux i j l) → sed zt' ≤ sed zt) ∧ ((∀ j, Monotone fun i => flux i j l) → sed zt ≤ sed zt') := by
  intro sed
  set M := fun (zt : Fin (n + 2) → ℝ) j => interp (Real.logb 10 (birthTime t_obs (a j))) (fun l => Real.logb 10 (t l)) zt with hM
  have hage := C17_age_weights_prob_mild_partial t s a t_obs H.times H.start H.resolved H.ages H.young H.old
  have hmono : ∀ j, M zt j ≤ M zt' j := fun j => interp_mono_fp (lgt_strictMono H.times H.start).monotone _ hzt
  have hd := fun j => (C144_dominance (z := z) H.width (hmono j) H.mets H.low H.high).2
  have form : ∀ y : Fin (n + 2) → ℝ, (∀ i, -10 ≤ y i) → (∀ i, y i ≤ 10) → sed y = massFormed t s 1e-14 t_obs *
      ∑ j, (∑ i, flux i j l * calc_lgmet_weights_from_lognormal_mdf (M y j) scatter z i) * calc_age_weights_from_sfh_table t s a t_obs SFR_MIN j := fun y h1 h2 => by
    simp only [sed]
    rw [(C25_sed_formula t s y 0 scatter z a flux t_obs SFR_MIN l).2]
    have hw := (C24_factorisation_any_grid t s y scatter z a t_obs H.times H.start H.resolved H.ages.1 H.young H.old H.width h1 h2).1
    rw [Finset.sum_comm]
    congr 1
    refine Finset.sum_congr rfl fun j _ => ?_
    rw [Finset.sum_mul]
    refine Finset.sum_congr rfl fun i _ => ?_
    have e : (calc_rest_sed_sfh_table_met_table t s y scatter z a flux t_obs SFR_MIN).weights i j = _ := hw i j
    rw [e]; simp only [hM]; ring
  rw [form zt hlo fun i => (hzt i).trans (hhi i), form zt' (fun i => (hlo i).trans (hzt i)) hhi]
  refine ⟨fun h => ?_, fun h => ?_⟩ <;>
    refine mul_le_mul_of_nonneg_left (Finset.sum_le_sum fun j _ => mul_le_mul_of_nonneg_right ?_ (hage.1 j)) (massFormed_pos _).le
  · have := hd j (fun i => - flux i j l) fun p q hpq => neg_le_neg (h j hpq)
    simp only [neg_mul, Finset.sum_neg_distrib, neg_le_neg_iff] at this
    exact this
  · exact hd j (fun i => flux i j l) (h j)

end sed

/-! ## cases -/

example := C144_dominance (k := 2) (μ := -3.1) (μ' := -2.6) (by norm_num : (0:ℝ) < 0.2) (by norm_num) caseZ_mild caseZ_lo caseZ_hi
example := C144_mean (k := 2) (μ := -2.9) (δ := 0.5) (by norm_num : (0:ℝ) < 0.2) caseZ_mild caseZ_lo caseZ_hi (fun i => by simp [caseZ]; linarith) (by norm_num [caseZ]) (by norm_num [caseZ])
example := C144_scatter (k := 2) (μ := -2.9) (z := caseZ) (by norm_num : (0:ℝ) < 0.2) (by norm_num : (0.2:ℝ) ≤ 0.3) (by norm_num) (by norm_num) 1

section
attribute [local instance] Dtype.float64
example := (C144_sed (s := caseS) (flux := caseF) case_sedInputs (by norm_num : (-3.1:ℝ) ≤ -2.6) 1).2 fun j p q h => by
  have : (p.val : ℝ) ≤ q.val := by exact_mod_cast h
  simp only [caseF]; gcongr
example := (C144_sed_met_table (s := caseS) (flux := caseF) (zt := fun _ => -3.5) (zt' := caseZT) case_sedInputs
  (Case.all3 (p := fun x => -3.5 ≤ x) (by vec) (by vec) (by vec)) (fun _ => by norm_num) (Case.all3 (p := fun x => x ≤ 10) (by vec) (by vec) (by vec)) 1).2 fun j p q h => by
  have : (p.val : ℝ) ≤ q.val := by exact_mod_cast h
  simp only [caseF]; gcongr
end

end Dsps.Props
