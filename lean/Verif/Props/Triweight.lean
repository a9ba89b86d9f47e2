import Verif.Spec
import Verif.Lemmas.Utils
import Verif.Cases

/-! Properties C01–C06: triweight kernel, soft histograms, bin edges, cell widths
(`/repo/dsps/utils.py`). -/
namespace Dsps.Props
open Dsps.Utils Dsps.Lemmas Spec Set
open scoped BigOperators

variable {n : ℕ}

/-! ## C01 -/

/-- C01: the triweight error function is a CDF: values in [0,1], monotone, 0 (1) from three widths below (above) the
centre on, 1/2 at the centre, point-symmetric about the centre. -/
theorem C01_triweight_cdf (m h : ℝ) (hh : 0 < h) :
    (∀ x, 0 ≤ tw_cuml_kern x m h ∧ tw_cuml_kern x m h ≤ 1) ∧
    Monotone (fun x => tw_cuml_kern x m h) ∧
    (∀ x, x ≤ m - 3 * h → tw_cuml_kern x m h = 0) ∧
    (∀ x, m + 3 * h ≤ x → tw_cuml_kern x m h = 1) ∧
    tw_cuml_kern m m h = 1 / 2 ∧
    (∀ d, tw_cuml_kern (m - d) m h = 1 - tw_cuml_kern (m + d) m h) := by
  simp only [tw_cuml_kern_eq]
  refine ⟨fun x => ⟨twC_nonneg _, twC_le_one _⟩, ?_, ?_, ?_, ?_, ?_⟩
  · intro x y hxy
    exact twC_mono (by gcongr)
  · intro x hx
    apply twC_of_le
    rw [div_le_iff₀ hh]; linarith
  · intro x hx
    apply twC_of_ge
    rw [le_div_iff₀ hh]; linarith
  · simp [twC_zero]
  · intro d
    rw [← twC_neg]; congr 1; ring

/-- case: a kernel centred on 2 with width 1/10 -/
example := C01_triweight_cdf 2 (1 / 10) (by vec)

/-- C01 (sharpness): strictly between the two ends of the support the CDF is strictly between 0 and 1 and strictly
increasing. -/
theorem C01_triweight_cdf_strict (m h : ℝ) (hh : 0 < h) :
    StrictMonoOn (fun x => tw_cuml_kern x m h) (Icc (m - 3 * h) (m + 3 * h)) ∧
    ∀ x, m - 3 * h < x → x < m + 3 * h → 0 < tw_cuml_kern x m h ∧ tw_cuml_kern x m h < 1 := by
  simp only [tw_cuml_kern_eq]
  refine ⟨?_, fun x h1 h2 => ⟨twC_pos ?_, twC_lt_one ?_⟩⟩
  · intro x hx y hy hxy
    have aux : ∀ u ∈ Icc (m - 3 * h) (m + 3 * h), (u - m) / h ∈ Icc (-3 : ℝ) 3 := fun u hu =>
      ⟨by rw [le_div_iff₀ hh]; linarith [hu.1], by rw [div_le_iff₀ hh]; linarith [hu.2]⟩
    exact twC_strictMonoOn (aux x hx) (aux y hy) (by gcongr)
  · rw [lt_div_iff₀ hh]; linarith
  · rw [div_lt_iff₀ hh]; linarith

/-- case: the same kernel, at a point half a width above its centre -/
example : 0 < tw_cuml_kern 2.05 2 (1 / 10) ∧ tw_cuml_kern 2.05 2 (1 / 10) < 1 :=
  (C01_triweight_cdf_strict 2 (1 / 10) (by vec)).2 2.05 (by vec) (by vec)

/-- non-vacuity: a concrete centre and width, with the value one width above the centre -/
example : (0:ℝ) < 1 ∧ tw_cuml_kern 1 0 1 = -5 / 69984 + 7 / 2592 - 35 / 864 + 35 / 96 + 1 / 2 := by
  norm_num [tw_cuml_kern]

/-! ## C02 -/

/-- C02: `triweight_gaussian` is non-negative, vanishes outside the support, is the derivative of the CDF at every
point (the two edges of the support included), and is the textbook density on the support. -/
theorem C02_triweight_density (m h : ℝ) (hh : 0 < h) :
    (∀ x, 0 ≤ triweight_gaussian x m h) ∧
    (∀ x, 3 * h < |x - m| → triweight_gaussian x m h = 0) ∧
    (∀ x, HasDerivAt (fun u => tw_cuml_kern u m h) (triweight_gaussian x m h) x) ∧
    (∀ x, |x - m| ≤ 3 * h → triweight_gaussian x m h = 35 / (96 * h) * (1 - (x - m) ^ 2 / (9 * h ^ 2)) ^ 3) := by
  refine ⟨fun x => ?_, fun x hx => ?_, fun x => hasDerivAt_tw_cuml_kern x m h hh.ne', fun x hx => ?_⟩
  · rw [triweight_gaussian_eq]; exact div_nonneg (twc_nonneg _) hh.le
  · rw [triweight_gaussian_eq]
    have : (x - m) / h < -3 ∨ (x - m) / h > 3 := by
      rcases lt_abs.mp hx with g | g
      · right; rw [gt_iff_lt, lt_div_iff₀ hh]; linarith
      · left; rw [div_lt_iff₀ hh]; linarith
    simp [twc, this]
  · have h1 := abs_le.mp hx
    have : ¬ ((x - m) / h < -3 ∨ (x - m) / h > 3) := by
      push Not
      constructor
      · rw [le_div_iff₀ hh]; linarith [h1.1]
      · rw [div_le_iff₀ hh]; linarith [h1.2]
    rw [triweight_gaussian_eq, twc, if_neg this, twp]
    field_simp
    ring

/-- case: a density centred on -1 with width 1/2 -/
example := C02_triweight_density (-1) (1 / 2) (by vec)

/-- C02: the density integrates to one over its support (and over any interval containing it). -/
theorem C02_triweight_integral_one (m h a b : ℝ) (hh : 0 < h) (ha : a ≤ m - 3 * h) (hb : m + 3 * h ≤ b) :
    ∫ u in a..b, triweight_gaussian u m h = 1 := by
  rw [integral_triweight_gaussian m h a b hh.ne', (C01_triweight_cdf m h hh).2.2.1 a ha,
    (C01_triweight_cdf m h hh).2.2.2.1 b hb]
  norm_num

/-- case: the same density integrated over [-3, 5] -/
example : ∫ u in (-3:ℝ)..5, triweight_gaussian u (-1) (1 / 2) = 1 :=
  C02_triweight_integral_one (-1) (1 / 2) (-3) 5 (by vec) (by vec) (by vec)

example : ∃ a b : ℝ, a ≤ 2 - 3 * (1:ℝ) ∧ 2 + 3 * (1:ℝ) ≤ b := ⟨-1, 5, by norm_num, by norm_num⟩

/-! ## C03 -/

/-- C03: bin `i` of the histogram is the mass of the triweight density centred on `x` between the two bin
edges. -/
theorem C03_bin_is_integral (x sig : ℝ) (hs : 0 < sig) (e : Fin (n + 1) → ℝ) (i : Fin n) :
    triweighted_histogram x sig e i = ∫ u in (e i.castSucc)..(e i.succ), triweight_gaussian u x sig := by
  rw [integral_triweight_gaussian _ _ _ _ hs.ne']
  simp only [triweighted_histogram, Jnp.vmap₂, triweighted_histogram_kernel, Jnp.init, Jnp.tail]
  rw [tw_cuml_kern_swap x, tw_cuml_kern_swap x]; ring

/-- case: the second of two unequal bins -/
example := C03_bin_is_integral (1 / 3) (1 / 5) (by vec) ![0, 1 / 2, 2] 1

/-- C03: bins are non-negative; they sum to the kernel mass between first and last edge, whatever the interior edges
are (no ordering needed); the sum is at most one. -/
theorem C03_histogram_partition (x sig : ℝ) (hs : 0 < sig) (e : Fin (n + 1) → ℝ) :
    ∑ i, triweighted_histogram x sig e i
        = ∫ u in (e 0)..(e (Fin.last n)), triweight_gaussian u x sig ∧
    ∑ i, triweighted_histogram x sig e i ≤ 1 ∧
    (Monotone e → ∀ i, 0 ≤ triweighted_histogram x sig e i) := by
  rw [tw_hist_sum]
  refine ⟨?_, ?_, fun he i => tw_hist_nonneg x sig hs e he i⟩
  · rw [integral_triweight_gaussian _ _ _ _ hs.ne', tw_cuml_kern_swap x, tw_cuml_kern_swap x (e (Fin.last n))]
    ring
  · have h1 := ((C01_triweight_cdf (e 0) sig hs).1 x).2
    have h2 := ((C01_triweight_cdf (e (Fin.last n)) sig hs).1 x).1
    linarith

/-- case: two increasing bins, so the bins are non-negative as well -/
example : ∀ i, 0 ≤ triweighted_histogram (1 / 3) (1 / 5) ![0, 1 / 2, 2] i :=
  (C03_histogram_partition (1 / 3) (1 / 5) (by vec) ![0, 1 / 2, 2]).2.2
    (Case.sm3 (by vec) (by vec)).monotone

/-- C03: if the kernel support lies within the edges the sum is exactly one. -/
theorem C03_histogram_total_one (x sig : ℝ) (hs : 0 < sig) (e : Fin (n + 1) → ℝ)
    (hlo : e 0 ≤ x - 3 * sig) (hhi : x + 3 * sig ≤ e (Fin.last n)) :
    ∑ i, triweighted_histogram x sig e i = 1 := by
  rw [tw_hist_sum, (C01_triweight_cdf _ sig hs).2.2.2.1 x (by linarith),
    (C01_triweight_cdf _ sig hs).2.2.1 x (by linarith)]
  norm_num

/-- case: bins covering the support -/
example : ∑ i, triweighted_histogram (1 / 3) (1 / 5) ![-1, 1 / 2, 2] i = 1 :=
  C03_histogram_total_one (1 / 3) (1 / 5) (by vec) ![-1, 1 / 2, 2] (by vec) (by vec)

/-- C03: a bin lying at least three widths away from `x` receives exactly zero. -/
theorem C03_far_bin_zero (x sig : ℝ) (hs : 0 < sig) (e : Fin (n + 1) → ℝ) (he : Monotone e) (i : Fin n)
    (hfar : e i.succ ≤ x - 3 * sig ∨ x + 3 * sig ≤ e i.castSucc) :
    triweighted_histogram x sig e i = 0 := by
  have hle := he (Fin.castSucc_lt_succ (i := i)).le
  simp only [triweighted_histogram, Jnp.vmap₂, triweighted_histogram_kernel, Jnp.init, Jnp.tail]
  rcases hfar with h | h
  · rw [(C01_triweight_cdf _ sig hs).2.2.2.1 x (by linarith), (C01_triweight_cdf _ sig hs).2.2.2.1 x (by linarith)]
    norm_num
  · rw [(C01_triweight_cdf _ sig hs).2.2.1 x (by linarith), (C01_triweight_cdf _ sig hs).2.2.1 x (by linarith)]
    norm_num

/-- case: the bin [2, 3] and a kernel that ends at 14/15 -/
example : triweighted_histogram (1 / 3) (1 / 5) ![0, 2, 3] 1 = 0 :=
  C03_far_bin_zero (1 / 3) (1 / 5) (by vec) ![0, 2, 3] (Case.sm3 (by vec) (by vec)).monotone 1
    (Or.inr (by vec))

example : ∃ e : Fin 3 → ℝ, Monotone e ∧ e 0 ≤ 0 - 3 * (1:ℝ) ∧ 0 + 3 * (1:ℝ) ≤ e (Fin.last 2) := by
  refine ⟨![-4, 0, 4], ?_, ?_, ?_⟩
  · rw [Fin.monotone_iff_le_succ]; intro i; fin_cases i <;> simp
  · simp; norm_num
  · simp [Fin.last]; norm_num

/-! ## C04 -/

/-- C04: the weights of a single point are a probability vector for every `x`, inside or outside the bins. -/
theorem C04_triweights_prob (x sig : ℝ) (hs : 0 < sig) (e : Fin (n + 2) → ℝ) (he : Monotone e)
    (hlt : e 0 < e (Fin.last (n + 1))) :
    IsProbVector (get_triweights_singlepoint x sig e) := by
  set S := ∑ i, triweighted_histogram x sig e i with hS
  have hpos : ∀ i, 0 ≤ triweighted_histogram x sig e i := tw_hist_nonneg x sig hs e he
  by_cases hz : S = 0
  · -- no overlap: all raw weights vanish and x is outside the edges
    have hall : ∀ i, triweighted_histogram x sig e i = 0 := by
      intro i
      exact (Finset.sum_eq_zero_iff_of_nonneg (fun i _ => hpos i)).mp hz i (Finset.mem_univ i)
    have hout : x < e 0 ∨ e (Fin.last (n + 1)) < x := by
      by_contra hcon
      push Not at hcon
      have h0 : tw_cuml_kern x (e 0) sig - tw_cuml_kern x (e (Fin.last (n+1))) sig = 0 := by
        rw [← tw_hist_sum]; exact hz
      rw [tw_cuml_kern_eq, tw_cuml_kern_eq] at h0
      have a1 : 0 ≤ (x - e 0) / sig := div_nonneg (by linarith) hs.le
      have a2 : (x - e (Fin.last (n+1))) / sig ≤ 0 := div_nonpos_of_nonpos_of_nonneg (by linarith) hs.le
      have b1 : 1 / 2 ≤ twC ((x - e 0) / sig) := by rw [← twC_zero]; exact twC_mono a1
      have b2 : twC ((x - e (Fin.last (n+1))) / sig) ≤ 1 / 2 := by rw [← twC_zero]; exact twC_mono a2
      have c : ∀ z, twC z = 1 / 2 → z = 0 := by
        intro z hz
        rcases lt_trichotomy z 0 with g | g | g
        · exfalso
          rcases le_total z (-3) with k | k
          · rw [twC_of_le k] at hz; norm_num at hz
          · have := twC_strictMonoOn ⟨k, by linarith⟩ ⟨by norm_num, by norm_num⟩ g
            rw [twC_zero, hz] at this; exact lt_irrefl _ this
        · exact g
        · exfalso
          rcases le_total 3 z with k | k
          · rw [twC_of_ge k] at hz; norm_num at hz
          · have := twC_strictMonoOn ⟨by norm_num, by norm_num⟩ ⟨by linarith, k⟩ g
            rw [twC_zero, hz] at this; exact lt_irrefl _ this
      have d1 := c _ (le_antisymm (by linarith) b1)
      have d2 := c _ (le_antisymm b2 (by linarith))
      rw [div_eq_zero_iff] at d1 d2
      have := hs.ne'
      have e1 : x - e 0 = 0 := by tauto
      have e2 : x - e (Fin.last (n+1)) = 0 := by tauto
      linarith
    have hw : ∀ i, triweighted_histogram x sig e i /
        (if Jnp.sum (triweighted_histogram x sig e) = 0 then (1.0:ℝ) else Jnp.sum (triweighted_histogram x sig e)) = 0 := by
      intro i; rw [hall i]; simp
    unfold get_triweights_singlepoint fill_empty_weights_singlepoint
    simp only [hw, implies_true, true_and, Jnp.last]
    rcases hout with h | h
    · have h' : ¬ (x > e (Fin.last (n+1))) := by linarith
      simp only [h, h', if_true, if_false]
      refine ⟨fun i => ?_, ?_⟩
      · by_cases hi : i = 0
        · subst hi; simp [Jnp.setAt]; norm_num
        · simp [Jnp.setAt, Function.update_of_ne hi, Jnp.zeros]
      · rw [Finset.sum_eq_single 0]
        · simp [Jnp.setAt]; norm_num
        · intro b _ hb; simp [Jnp.setAt, Function.update_of_ne hb, Jnp.zeros]
        · simp
    · simp only [gt_iff_lt, h, if_true]
      refine ⟨fun i => ?_, ?_⟩
      · by_cases hi : i = Fin.last n
        · subst hi; simp [Jnp.setAt]; norm_num
        · simp [Jnp.setAt, Function.update_of_ne hi, Jnp.zeros]
      · rw [Finset.sum_eq_single (Fin.last n)]
        · simp [Jnp.setAt]; norm_num
        · intro b _ hb; simp [Jnp.setAt, Function.update_of_ne hb, Jnp.zeros]
        · simp
  · have hSpos : 0 < S := lt_of_le_of_ne (Finset.sum_nonneg fun i _ => hpos i) (Ne.symm hz)
    have hsum : Jnp.sum (triweighted_histogram x sig e) = S := rfl
    have hone : ∑ i, triweighted_histogram x sig e i / S = 1 := by
      rw [← Finset.sum_div, ← hS]; exact div_self hz
    have hnz : ¬ ∀ i, triweighted_histogram x sig e i / S = 0 := by
      intro h
      rw [Finset.sum_eq_zero (fun i _ => h i)] at hone
      norm_num at hone
    unfold get_triweights_singlepoint fill_empty_weights_singlepoint
    simp only [hsum, hz, if_false, hnz, false_and]
    exact ⟨fun i => div_nonneg (hpos i) hSpos.le, hone⟩

/-- case: a point outside the bins, where the fallback weights are used -/
example : IsProbVector (get_triweights_singlepoint 7 (1 / 5) ![0, 1 / 2, 2]) :=
  C04_triweights_prob (n := 1) 7 (1 / 5) (by vec) ![0, 1 / 2, 2] (Case.sm3 (by vec) (by vec)).monotone
    (by vec)

/-- C04: when some kernel mass falls in the bins, the weights are the bin masses divided by their total. -/
theorem C04_triweights_overlap (x sig : ℝ) (hs : 0 < sig) (e : Fin (n + 2) → ℝ)
    (hov : ∫ u in (e 0)..(e (Fin.last (n + 1))), triweight_gaussian u x sig ≠ 0) (i : Fin (n + 1)) :
    get_triweights_singlepoint x sig e i =
      (∫ u in (e i.castSucc)..(e i.succ), triweight_gaussian u x sig) /
        ∫ u in (e 0)..(e (Fin.last (n + 1))), triweight_gaussian u x sig := by
  rw [← (C03_histogram_partition x sig hs e).1] at hov ⊢
  rw [← C03_bin_is_integral x sig hs e i]
  have hsum : Jnp.sum (triweighted_histogram x sig e) = ∑ i, triweighted_histogram x sig e i := rfl
  have hnz : ¬ ∀ i, triweighted_histogram x sig e i / (∑ i, triweighted_histogram x sig e i) = 0 := by
    intro h
    have h2 : ∑ i, triweighted_histogram x sig e i / (∑ i, triweighted_histogram x sig e i) = 1 := by
      rw [← Finset.sum_div]; exact div_self hov
    rw [Finset.sum_eq_zero (fun i _ => h i)] at h2
    norm_num at h2
  unfold get_triweights_singlepoint fill_empty_weights_singlepoint
  simp only [hsum, hov, if_false, hnz, false_and]

/-- case: a kernel covered by the bins -/
example := C04_triweights_overlap (n := 1) (1 / 3) (1 / 5) (by vec) ![-1, 1 / 2, 2]
  (by rw [C02_triweight_integral_one _ _ _ _ (by vec) (by vec) (by vec)]; norm_num) 0

/-- C04: a point at least three widths below (above) all the edges puts all its weight in the first (last) bin. -/
theorem C04_triweights_outside (x sig : ℝ) (hs : 0 < sig) (e : Fin (n + 2) → ℝ) (he : Monotone e)
    (hlt : e 0 < e (Fin.last (n + 1))) :
    (x + 3 * sig ≤ e 0 → get_triweights_singlepoint x sig e = fun i => if i = 0 then 1 else 0) ∧
    (e (Fin.last (n + 1)) ≤ x - 3 * sig →
      get_triweights_singlepoint x sig e = fun i => if i = Fin.last n then 1 else 0) := by
  constructor
  · intro h
    have hall : ∀ i, triweighted_histogram x sig e i = 0 := fun i =>
      C03_far_bin_zero x sig hs e he i (Or.inr (h.trans (he (Fin.zero_le _))))
    have hlo : x < e 0 := by linarith
    have hhi : ¬ (x > e (Fin.last (n + 1))) := by linarith
    unfold get_triweights_singlepoint fill_empty_weights_singlepoint
    simp only [hall, zero_div, implies_true, true_and, Jnp.last, hlo, hhi, if_true, if_false]
    funext i
    by_cases hi : i = 0
    · subst hi; simp [Jnp.setAt]; norm_num
    · simp [Jnp.setAt, Jnp.zeros, hi]
  · intro h
    have hall : ∀ i, triweighted_histogram x sig e i = 0 := fun i =>
      C03_far_bin_zero x sig hs e he i (Or.inl ((he (Fin.le_last _)).trans h))
    have hhi : x > e (Fin.last (n + 1)) := by linarith
    unfold get_triweights_singlepoint fill_empty_weights_singlepoint
    simp only [hall, zero_div, implies_true, true_and, Jnp.last, hhi, if_true]
    funext i
    by_cases hi : i = Fin.last n
    · subst hi; simp [Jnp.setAt]; norm_num
    · simp [Jnp.setAt, Jnp.zeros, hi]

/-- case: a kernel above the last bin: all weight in that bin -/
example : get_triweights_singlepoint 7 (1 / 5) ![0, 1 / 2, 2] = fun i => if i = Fin.last 1 then 1 else 0 :=
  (C04_triweights_outside (n := 1) 7 (1 / 5) (by vec) ![0, 1 / 2, 2]
    (Case.sm3 (by vec) (by vec)).monotone (by vec)).2 (by vec)

example : ∃ e : Fin 3 → ℝ, Monotone e ∧ e 0 < e (Fin.last 2) ∧ (100:ℝ) + 3 * 1 ≤ 1e6 ∧ e (Fin.last 2) ≤ (100:ℝ) - 3 * 1 := by
  refine ⟨![-4, 0, 4], ?_, ?_, ?_, ?_⟩
  · rw [Fin.monotone_iff_le_succ]; intro i; fin_cases i <;> simp
  · simp [Fin.last]
  · norm_num
  · simp [Fin.last]; norm_num

/-! ## C05 -/

/-- C05 (unconditional part): `_get_bin_edges` returns exactly one more edge than mids (by its type) and its first and
last edges are the requested limits. -/
theorem C05_edges_limits (t : Fin (n + 3) → ℝ) (lo hi : ℝ) :
    get_bin_edges t lo hi 0 = lo ∧ get_bin_edges t lo hi (Fin.last (n + 3)) = hi :=
  ⟨edges_zero t lo hi, edges_last t lo hi⟩

/-- C05: exact characterisation.  For increasing mids strictly inside the limits, every mid lies strictly inside its own bin
**iff** no spacing is three or more times the previous one (and the last spacing is more than a fifth of the one before). -/
theorem C05_mids_in_bins_iff (t : Fin (n + 3) → ℝ) (ht : StrictMono t) (lo hi : ℝ) (hlo : lo < t 0)
    (hhi : t (Fin.last (n + 2)) < hi) :
    (∀ i : Fin (n + 3), get_bin_edges t lo hi i.castSucc < t i ∧ t i < get_bin_edges t lo hi i.succ) ↔
      MildlySpaced t := by
  rw [MildlySpaced, and_iff_right ht]
  have hstep : ∀ i : Fin (n + 2), t i.castSucc < t i.succ := fun i => ht Fin.castSucc_lt_succ
  constructor
  · intro h
    constructor
    · intro j
      have := (h j.castSucc.castSucc).2
      rw [Fin.succ_castSucc, edges_interior] at this
      have h1 := hstep j.castSucc
      rw [Fin.succ_castSucc] at *
      linarith
    · have := (h (Fin.last (n + 1)).castSucc).2
      rw [Fin.succ_castSucc, Fin.succ_last, edges_penult] at this
      linarith
  · rintro ⟨h1, h2⟩ i
    constructor
    · -- edge below the mid: no condition needed
      rcases fin_cases3 i with h | ⟨j, h⟩ | h
      · subst h; rw [Fin.castSucc_zero, edges_zero]; exact hlo
      · subst h; rw [edges_interior]
        have a := hstep j.castSucc
        have b := hstep j.succ
        rw [← Fin.succ_castSucc] at b
        linarith
      · subst h; rw [edges_penult]
        have a := hstep (Fin.last (n + 1))
        have b := hstep (Fin.last n).castSucc
        rw [Fin.succ_last] at a
        rw [Fin.succ_castSucc, Fin.succ_last] at b
        linarith
    · rcases i.eq_castSucc_or_eq_last with ⟨k, hk⟩ | hk
      · subst hk
        rw [Fin.succ_castSucc]
        rcases k.eq_castSucc_or_eq_last with ⟨j, hj⟩ | hj
        · subst hj
          have := h1 j
          have a := hstep j.castSucc
          rw [← Fin.succ_castSucc] at this
          rw [Fin.succ_castSucc, ← Fin.succ_castSucc, edges_interior]
          linarith
        · subst hj
          rw [Fin.succ_last, edges_penult]
          linarith
      · subst hk; rw [Fin.succ_last, edges_last]; exact hhi

/-- case: an unevenly spaced grid -/
example := C05_mids_in_bins_iff (n := 0) ![-2, -1, 1] (Case.sm3 (by vec) (by vec)) (-10) 10 (by vec)
  (by vec)

/-- C05 (`_partial`: the full property quantifies over *every* increasing grid; it is false there, see
`C05_edges_not_monotone`).  On grids whose spacings never grow by a factor three (nor end with a five-fold drop) the edges
are strictly increasing and each mid lies inside its own bin. -/
theorem C05_edges_bracket_partial (t : Fin (n + 3) → ℝ) (ht : MildlySpaced t) (lo hi : ℝ) (hlo : lo < t 0)
    (hhi : t (Fin.last (n + 2)) < hi) :
    StrictMono (get_bin_edges t lo hi) ∧
    ∀ i : Fin (n + 3), get_bin_edges t lo hi i.castSucc < t i ∧ t i < get_bin_edges t lo hi i.succ := by
  have h := (C05_mids_in_bins_iff t ht.1 lo hi hlo hhi).mpr ht
  exact ⟨Fin.strictMono_iff_lt_succ.mpr fun i => (h i).1.trans (h i).2, h⟩

/-- uniform grids are mildly spaced -/
theorem mildlySpaced_uniform (t0 d : ℝ) (hd : 0 < d) : MildlySpaced (fun i : Fin (n + 3) => t0 + i * d) := by
  refine ⟨?_, ?_, ?_⟩
  · intro i j hij
    have : (i : ℝ) < j := by exact_mod_cast hij
    simp only; nlinarith
  · intro j; simp; linarith
  · simp; linarith

/-- C05 for uniform grids: no further condition. -/
theorem C05_edges_bracket_uniform (t0 d : ℝ) (hd : 0 < d) (lo hi : ℝ) (hlo : lo < t0)
    (hhi : t0 + (n + 2) * d < hi) :
    StrictMono (get_bin_edges (fun i : Fin (n + 3) => t0 + i * d) lo hi) ∧
    ∀ i : Fin (n + 3), get_bin_edges (fun i : Fin (n + 3) => t0 + i * d) lo hi i.castSucc < t0 + i * d ∧
      t0 + i * d < get_bin_edges (fun i : Fin (n + 3) => t0 + i * d) lo hi i.succ := by
  exact C05_edges_bracket_partial _ (mildlySpaced_uniform t0 d hd) lo hi (by simpa using hlo) (by simpa using hhi)

/-- case: a uniform metallicity grid between the limits used by the library -/
example := C05_edges_bracket_uniform (n := 9) (-3) (1 / 4) (by vec) (-10) 10 (by vec) (by vec)

/-- C05 is false of the code on irregular grids: with mids 0, 1, 2, 11 inside the limits -1 and 20 the edges are not
increasing (the edge between bins 1 and 2 lies at 1 - 1/2 = 0.5, the next at 2 - 10/4 = -0.5). -/
theorem C05_edges_not_monotone : ∃ (t : Fin 4 → ℝ) (lo hi : ℝ), StrictMono t ∧ lo < t 0 ∧ t 3 < hi ∧
    ¬ Monotone (get_bin_edges t lo hi) := by
  refine ⟨![0, 1, 2, 11], -1, 20, ?_, by simp, by simp; norm_num, ?_⟩
  · rw [Fin.strictMono_iff_lt_succ]; intro i; fin_cases i <;> simp <;> norm_num
  · intro h
    have h1 := edges_interior (n := 1) ![0, 1, 2, 11] (-1) 20 0
    have h2 := edges_interior (n := 1) ![0, 1, 2, 11] (-1) 20 1
    have h3 := h (show ((0 : Fin 2).castSucc.succ.castSucc : Fin 5) ≤ (1 : Fin 2).castSucc.succ.castSucc by decide)
    rw [h1, h2] at h3
    simp at h3
    norm_num at h3

example : ∃ t : Fin 4 → ℝ, MildlySpaced t ∧ (-1 : ℝ) < t 0 ∧ t (Fin.last 3) < 20 := by
  refine ⟨![0, 1, 3, 6], ⟨?_, ?_, ?_⟩, by simp, by simp [Fin.last]; norm_num⟩
  · rw [Fin.strictMono_iff_lt_succ]; intro i; fin_cases i <;> simp <;> norm_num
  · intro j; fin_cases j <;> simp <;> norm_num
  · simp [Fin.last]; norm_num

/-! ## C06 -/

/-- C06: the width of each cell of a strictly increasing grid is positive. -/
theorem C06_widths_pos (t : Fin (n + 3) → ℝ) (ht : StrictMono t) (i : Fin (n + 3)) :
    0 < jax_get_dt_array t i := by
  have hstep : ∀ i : Fin (n + 2), t i.castSucc < t i.succ := fun i => ht Fin.castSucc_lt_succ
  rcases fin_cases3 i with h | ⟨j, h⟩ | h
  · subst h; rw [dt_zero]
    have := hstep 0
    simp at this; linarith
  · subst h; rw [dt_interior]
    have a := hstep j.castSucc
    have b := hstep j.succ
    rw [← Fin.succ_castSucc] at b
    linarith
  · subst h; rw [dt_last]
    have a := hstep (Fin.last (n + 1))
    have b := hstep (Fin.last n).castSucc
    rw [Fin.succ_last] at a
    rw [Fin.succ_castSucc, Fin.succ_last] at b
    linarith

/-- case: an unevenly spaced grid -/
example : 0 < jax_get_dt_array ![-2, -1, 1, 5] 3 :=
  C06_widths_pos (n := 1) ![-2, -1, 1, 5] (Case.sm4 (by vec) (by vec) (by vec)) 3

/-- C06: the width of an interior cell is the distance between the midpoints to its two neighbours; so widths of a run of
interior cells `a+1, …, b` telescope to the distance between the bracketing midpoints. -/
theorem C06_run_telescopes (t : Fin (n + 3) → ℝ) (a b : Fin (n + 2)) (hab : a ≤ b) :
    ∑ j : Fin (n + 1) with a ≤ j.castSucc ∧ j.castSucc < b, jax_get_dt_array t j.castSucc.succ =
      (t b.castSucc + t b.succ) / 2 - (t a.castSucc + t a.succ) / 2 := by
  simp only [dt_interior]
  induction b using Fin.induction with
  | zero =>
    have : a = 0 := le_antisymm hab (Fin.zero_le _)
    subst this
    simp
  | succ k ih =>
    rcases hab.lt_or_eq with h | h
    · have hak : a ≤ k.castSucc := Fin.le_castSucc_iff.mpr h
      have : (Finset.univ.filter fun j : Fin (n+1) => a ≤ j.castSucc ∧ j.castSucc < k.succ)
          = insert k (Finset.univ.filter fun j : Fin (n+1) => a ≤ j.castSucc ∧ j.castSucc < k.castSucc) := by
        ext j
        simp only [Finset.mem_filter, Finset.mem_univ, true_and, Finset.mem_insert]
        simp only [Fin.lt_def, Fin.le_def, Fin.ext_iff] at *
        simp at *
        omega
      rw [this, Finset.sum_insert (by simp), ih hak]
      rw [Fin.succ_castSucc]; ring
    · subst h
      rw [Finset.sum_eq_zero]
      · ring
      · intro j hj
        simp only [Finset.mem_filter] at hj
        exact absurd hj.2.2 (not_lt.mpr hj.2.1)

/-- case: the run of the two interior cells of a four-point grid -/
example := C06_run_telescopes (n := 1) ![-2, -1, 1, 5] 0 2 (by decide)

/-- C06: the widths of all cells sum to the extent of the extrapolated grid, from `t₀ - (t₁-t₀)/2` to
`t_last + (t_last - t_{last-2})/4`. -/
theorem C06_widths_total (t : Fin (n + 3) → ℝ) :
    ∑ i, jax_get_dt_array t i =
      (t (Fin.last (n + 2)) + (t (Fin.last (n + 2)) - t (Fin.last n).castSucc.castSucc) / 4)
        - (t 0 - (t 1 - t 0) / 2) := by
  rw [Fin.sum_univ_succ, Fin.sum_univ_castSucc, Fin.succ_last, dt_zero, dt_last]
  have h := C06_run_telescopes t 0 (Fin.last (n + 1)) (Fin.zero_le _)
  have : (Finset.univ.filter fun j : Fin (n+1) => (0 : Fin (n + 2)) ≤ j.castSucc ∧ j.castSucc < Fin.last (n + 1))
      = Finset.univ := by
    ext j; simp [Fin.castSucc_lt_last]
  rw [this] at h
  rw [h, Fin.succ_last]
  simp only [Fin.castSucc_zero, Fin.succ_zero_eq_one]
  ring

/-- C06: on a uniform grid every width is the spacing. -/
theorem C06_uniform (t0 d : ℝ) (i : Fin (n + 3)) :
    jax_get_dt_array (fun i : Fin (n + 3) => t0 + i * d) i = d := by
  rcases fin_cases3 i with h | ⟨j, h⟩ | h
  · subst h; rw [dt_zero]; simp
  · subst h; rw [dt_interior]; simp; ring
  · subst h; rw [dt_last]; simp; ring

example : ∃ t : Fin 3 → ℝ, StrictMono t := ⟨![0, 1, 5], by
  rw [Fin.strictMono_iff_lt_succ]; intro i; fin_cases i <;> simp⟩

end Dsps.Props
