import Verif.Model.Utils
import Verif.Lemmas.Triweight
import Mathlib.MeasureTheory.Integral.IntervalIntegral.FundThmCalculus
import Mathlib.Analysis.SpecialFunctions.Integrals.Basic

/-! Lemmas about the model of utils.py. -/
namespace Dsps.Lemmas
open Dsps.Utils Jnp Set
open scoped BigOperators

variable {n : ℕ}

/-! ### array primitives -/

@[simp] theorem setTail_zero {α} (a : Fin (n + 1) → α) (v : Fin n → α) : setTail a v 0 = a 0 := rfl
@[simp] theorem setTail_succ {α} (a : Fin (n + 1) → α) (v : Fin n → α) (i : Fin n) :
    setTail a v i.succ = v i := by simp [setTail]
@[simp] theorem setInit_last {α} (a : Fin (n + 1) → α) (v : Fin n → α) :
    setInit a v (Fin.last n) = a (Fin.last n) := by simp [setInit]
@[simp] theorem setInit_castSucc {α} (a : Fin (n + 1) → α) (v : Fin n → α) (i : Fin n) :
    setInit a v i.castSucc = v i := by simp [setInit]

theorem castSucc_succ_ne_last (j : Fin n) : (j.castSucc.succ : Fin (n + 2)) ≠ Fin.last (n + 1) := by
  intro h
  have := congrArg Fin.val h
  have := j.2
  simp at *

theorem zero_ne_last : (0 : Fin (n + 2)) ≠ Fin.last (n + 1) := by
  intro h; have := congrArg Fin.val h; simp at this

/-! ### cell widths -/

theorem dt_zero (t : Fin (n + 3) → ℝ) : jax_get_dt_array t 0 = t 1 - t 0 := by
  simp only [jax_get_dt_array, setAt]
  rw [Function.update_of_ne zero_ne_last, Function.update_self]
  simp only [init, tail, Fin.castSucc_zero, Fin.succ_zero_eq_one]
  norm_num; ring

theorem dt_interior (t : Fin (n + 3) → ℝ) (j : Fin (n + 1)) :
    jax_get_dt_array t j.castSucc.succ = (t j.succ.succ - t j.castSucc.castSucc) / 2 := by
  simp only [jax_get_dt_array, setAt]
  rw [Function.update_of_ne (castSucc_succ_ne_last j), Function.update_of_ne (Fin.succ_ne_zero _)]
  rw [setInterior, setTail_succ, setInit_castSucc]
  simp only [diff, init, tail, Fin.succ_castSucc]
  norm_num; ring

theorem dt_last (t : Fin (n + 3) → ℝ) :
    jax_get_dt_array t (Fin.last (n + 2)) =
      (t (Fin.last (n + 2)) - t (Fin.last (n + 1)).castSucc) / 2
      + (t (Fin.last (n + 2)) - t (Fin.last n).castSucc.castSucc) / 4 := by
  simp only [jax_get_dt_array, setAt, Function.update_self, last, diff, init, tail, Fin.succ_last, Fin.succ_castSucc]
  norm_num; ring

/-- Every index of a grid of at least three points is the first, an interior one or the last. -/
theorem fin_cases3 (i : Fin (n + 3)) :
    i = 0 ∨ (∃ j : Fin (n + 1), i = j.castSucc.succ) ∨ i = Fin.last (n + 2) := by
  rcases i.eq_zero_or_eq_succ with h | ⟨j, h⟩
  · exact Or.inl h
  · rcases j.eq_castSucc_or_eq_last with ⟨k, hk⟩ | hk
    · exact Or.inr (Or.inl ⟨k, by rw [h, hk]⟩)
    · exact Or.inr (Or.inr (by rw [h, hk, Fin.succ_last]))

/-! ### bin edges -/

theorem edges_zero (t : Fin (n + 3) → ℝ) (lo hi : ℝ) : get_bin_edges t lo hi 0 = lo := by
  simp only [get_bin_edges, setAt]
  rw [Function.update_of_ne zero_ne_last, Function.update_self]

theorem edges_last (t : Fin (n + 3) → ℝ) (lo hi : ℝ) :
    get_bin_edges t lo hi (Fin.last (n + 3)) = hi := by
  simp only [get_bin_edges, setAt, Function.update_self]

theorem edges_succ (t : Fin (n + 3) → ℝ) (lo hi : ℝ) (i : Fin (n + 2)) :
    get_bin_edges t lo hi i.succ.castSucc = t i.succ - jax_get_dt_array t i.succ / 2 := by
  simp only [get_bin_edges, setAt]
  rw [Function.update_of_ne (Fin.castSucc_lt_last _).ne, Function.update_of_ne (by
    rw [← Fin.succ_castSucc]; exact Fin.succ_ne_zero _), setInit_castSucc]

theorem edges_interior (t : Fin (n + 3) → ℝ) (lo hi : ℝ) (j : Fin (n + 1)) :
    get_bin_edges t lo hi j.castSucc.succ.castSucc =
      t j.castSucc.succ - (t j.succ.succ - t j.castSucc.castSucc) / 4 := by
  rw [edges_succ, dt_interior]; ring

theorem edges_penult (t : Fin (n + 3) → ℝ) (lo hi : ℝ) :
    get_bin_edges t lo hi (Fin.last (n + 2)).castSucc =
      t (Fin.last (n + 2)) - (t (Fin.last (n + 2)) - t (Fin.last (n + 1)).castSucc) / 4
        - (t (Fin.last (n + 2)) - t (Fin.last n).castSucc.castSucc) / 8 := by
  have := edges_succ t lo hi (Fin.last (n + 1))
  rw [Fin.succ_last] at this
  rw [this, dt_last]; ring

/-! ### triweight -/

theorem twc_eq_max (z : ℝ) : twc z = 35 / 96 * (max 0 (1 - (z / 3) ^ 2)) ^ 3 := by
  unfold twc twp
  split_ifs with h
  · have : 1 - (z / 3) ^ 2 ≤ 0 := by rcases h with h | h <;> nlinarith
    rw [max_eq_left this]; norm_num
  · push Not at h
    have : 0 ≤ 1 - (z / 3) ^ 2 := by nlinarith [h.1, h.2]
    rw [max_eq_right this]

theorem continuous_twc : Continuous twc := by
  have : twc = fun z => 35 / 96 * (max 0 (1 - (z / 3) ^ 2)) ^ 3 := funext twc_eq_max
  rw [this]; fun_prop

theorem hasDerivAt_tw_cuml_kern (x m h : ℝ) (_hh : h ≠ 0) :
    HasDerivAt (fun x => tw_cuml_kern x m h) (triweight_gaussian x m h) x := by
  have e : (fun x => tw_cuml_kern x m h) = fun x => twC ((x - m) / h) :=
    funext fun x => tw_cuml_kern_eq x m h
  rw [e, triweight_gaussian_eq]
  have h1 : HasDerivAt (fun x : ℝ => (x - m) / h) (1 / h) x :=
    ((hasDerivAt_id x).sub_const m).div_const h
  have := (hasDerivAt_twC ((x - m) / h)).comp x h1
  refine this.congr_deriv ?_
  ring

theorem continuous_triweight_gaussian (m h : ℝ) : Continuous fun x => triweight_gaussian x m h := by
  simp only [triweight_gaussian_eq]
  exact (continuous_twc.comp (by fun_prop)).div_const h

theorem integral_triweight_gaussian (m h a b : ℝ) (hh : h ≠ 0) :
    ∫ u in a..b, triweight_gaussian u m h = tw_cuml_kern b m h - tw_cuml_kern a m h :=
  intervalIntegral.integral_eq_sub_of_hasDerivAt
    (fun x _ => hasDerivAt_tw_cuml_kern x m h hh)
    ((continuous_triweight_gaussian m h).intervalIntegrable a b)

theorem tw_cuml_kern_swap (x m h : ℝ) : tw_cuml_kern x m h = 1 - tw_cuml_kern m x h := by
  rw [tw_cuml_kern_eq, tw_cuml_kern_eq, ← twC_neg]; congr 1; ring

theorem tw_cuml_kern_anti (x h : ℝ) (hh : 0 < h) : Antitone fun m => tw_cuml_kern x m h := by
  intro m m' hm
  simp only [tw_cuml_kern_eq]
  apply twC_mono
  gcongr

theorem tw_hist_nonneg (x sig : ℝ) (hs : 0 < sig) (e : Fin (n + 1) → ℝ) (he : Monotone e) (i : Fin n) :
    0 ≤ triweighted_histogram x sig e i := by
  simp only [triweighted_histogram, vmap₂, triweighted_histogram_kernel, init, tail]
  exact sub_nonneg.mpr (tw_cuml_kern_anti x sig hs (he (Fin.castSucc_lt_succ (i := i)).le))

theorem tw_hist_sum (x sig : ℝ) (e : Fin (n + 1) → ℝ) :
    ∑ i, triweighted_histogram x sig e i = tw_cuml_kern x (e 0) sig - tw_cuml_kern x (e (Fin.last n)) sig := by
  simp only [triweighted_histogram, vmap₂, triweighted_histogram_kernel, init, tail]
  exact sum_telescope' fun i => tw_cuml_kern x (e i) sig

/-! ### cumtrapz -/

theorem cumtrapz_scan_zero (c : ℝ × ℝ × ℝ) (x y : Fin (n + 1) → ℝ) :
    (scan cumtrapz_scan_func c fun i => (x i, y i)).2 0 = c.2.2 + (x 0 - c.1) * (y 0 + c.2.1) / 2 := by
  simp only [scan, cumtrapz_scan_func, Fin.cons_zero]; norm_num

theorem cumtrapz_scan_succ (c : ℝ × ℝ × ℝ) (x y : Fin (n + 1) → ℝ) (k : Fin n) :
    (scan cumtrapz_scan_func c fun i => (x i, y i)).2 k.succ =
      (scan cumtrapz_scan_func c fun i => (x i, y i)).2 k.castSucc
        + (x k.succ - x k.castSucc) * (y k.succ + y k.castSucc) / 2 := by
  induction n generalizing c with
  | zero => exact k.elim0
  | succ n ih =>
    rw [scan]
    simp only [Fin.cons_succ]
    refine Fin.cases ?_ (fun j => ?_) k
    · rw [Fin.castSucc_zero, Fin.cons_zero]
      rw [cumtrapz_scan_zero _ (fun i => x i.succ) (fun i => y i.succ)]
      simp only [cumtrapz_scan_func]
    · rw [← Fin.succ_castSucc, Fin.cons_succ]
      exact ih _ (fun i => x i.succ) (fun i => y i.succ) j

theorem cumtrapz_zero (x y : Fin (n + 1) → ℝ) : cumtrapz x y 0 = 0 := by
  rw [cumtrapz, cumtrapz_scan_zero]; simp

theorem cumtrapz_succ (x y : Fin (n + 1) → ℝ) (k : Fin n) :
    cumtrapz x y k.succ = cumtrapz x y k.castSucc
      + (x k.succ - x k.castSucc) * (y k.succ + y k.castSucc) / 2 :=
  cumtrapz_scan_succ _ x y k

theorem trapz_eq (x y : Fin (n + 1) → ℝ) :
    trapz x y = ∑ i : Fin n, (x i.succ - x i.castSucc) * (y i.castSucc + y i.succ) / 2 := by
  simp only [trapz, trapezoid, Jnp.sum, diff, tail, init, Finset.mul_sum]
  exact Finset.sum_congr rfl fun i _ => by norm_num; ring

/-! ### sigmoid -/

theorem sigmoid_pos (x : ℝ) : 0 < Jnp.sigmoid x := by unfold Jnp.sigmoid; positivity
theorem sigmoid_lt_one (x : ℝ) : Jnp.sigmoid x < 1 := by
  unfold Jnp.sigmoid
  rw [div_lt_one (by positivity)]
  linarith [Real.exp_pos (-x)]
theorem sigmoid_strictMono : StrictMono Jnp.sigmoid := by
  intro a b h
  unfold Jnp.sigmoid
  have : Real.exp (-b) < Real.exp (-a) := Real.exp_lt_exp.mpr (by linarith)
  apply one_div_lt_one_div_of_lt (by positivity); linarith
theorem sigmoid_zero : Jnp.sigmoid 0 = 1 / 2 := by simp [Jnp.sigmoid]; norm_num
theorem sigmoid_neg (x : ℝ) : Jnp.sigmoid (-x) = 1 - Jnp.sigmoid x := by
  unfold Jnp.sigmoid
  rw [neg_neg, Real.exp_neg]
  have := Real.exp_pos x
  field_simp
  ring

end Dsps.Lemmas
