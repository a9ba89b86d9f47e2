import Verif.Model.Utils
import Verif.Lemmas.Utils
import Mathlib.Analysis.Convex.Deriv
import Mathlib.MeasureTheory.Integral.IntervalIntegral.FundThmCalculus
import Mathlib.Analysis.SpecialFunctions.Integrals.Basic

/-! Trapezoid sums against integrals, for convex integrands. -/
namespace Dsps.Lemmas
open Jnp Dsps.Utils Set
open scoped BigOperators

variable {n : ℕ}

theorem affine_integral (a b c m : ℝ) :
    ∫ x in a..b, (c + m * (x - a)) = (b - a) * c + m * (b - a) ^ 2 / 2 := by
  have h : ∀ x ∈ uIcc a b, HasDerivAt (fun x => c * x + m * (x - a) ^ 2 / 2) (c + m * (x - a)) x := by
    intro x _
    have h1 := ((hasDerivAt_id x).const_mul c).add
      (((((hasDerivAt_id x).sub_const a).pow 2).const_mul m).div_const 2)
    refine h1.congr_deriv ?_
    simp; ring
  rw [intervalIntegral.integral_eq_sub_of_hasDerivAt h]
  · ring
  · apply Continuous.intervalIntegrable; fun_prop

theorem cell_le_trap {f : ℝ → ℝ} {a b : ℝ} (hab : a ≤ b) (hf : ContinuousOn f (Icc a b))
    (hc : ConvexOn ℝ (Icc a b) f) : ∫ x in a..b, f x ≤ (b - a) * (f a + f b) / 2 := by
  rcases eq_or_lt_of_le hab with h | h
  · subst h; simp
  have hba : 0 < b - a := by linarith
  have e : (b - a) * (f a + f b) / 2 = ∫ x in a..b, (f a + ((f b - f a) / (b - a)) * (x - a)) := by
    rw [affine_integral]; field_simp; ring
  rw [e]
  apply intervalIntegral.integral_mono_on hab
  · exact (hf.mono (by rw [uIcc_of_le hab])).intervalIntegrable
  · apply Continuous.intervalIntegrable; fun_prop
  · intro x hx
    have := hc.2 (left_mem_Icc.2 hab) (right_mem_Icc.2 hab)
      (div_nonneg (sub_nonneg.2 hx.2) hba.le) (div_nonneg (sub_nonneg.2 hx.1) hba.le)
      (by field_simp; ring)
    simp only [smul_eq_mul] at this
    have e2 : (b - x) / (b - a) * a + (x - a) / (b - a) * b = x := by field_simp; ring
    rw [e2] at this
    refine this.trans_eq ?_
    field_simp; ring

theorem trap_le_cell {f : ℝ → ℝ} {a b da db : ℝ} (hab : a ≤ b) (hf : ContinuousOn f (Icc a b))
    (h1 : ∀ x ∈ Icc a b, f a + da * (x - a) ≤ f x) (h2 : ∀ x ∈ Icc a b, f b + db * (x - b) ≤ f x) :
    (b - a) * (f a + f b) / 2 ≤ (∫ x in a..b, f x) + (b - a) ^ 2 / 4 * (db - da) := by
  have e : (b - a) * (f a + f b) / 2 - (b - a) ^ 2 / 4 * (db - da)
      = ∫ x in a..b, ((f a + f b + db * (a - b)) / 2 + ((da + db) / 2) * (x - a)) := by
    rw [affine_integral]; ring
  have : (b - a) * (f a + f b) / 2 - (b - a) ^ 2 / 4 * (db - da) ≤ ∫ x in a..b, f x := by
    rw [e]
    apply intervalIntegral.integral_mono_on hab
    · apply Continuous.intervalIntegrable; fun_prop
    · exact (hf.mono (by rw [uIcc_of_le hab])).intervalIntegrable
    · intro x hx
      have := h1 x hx
      have := h2 x hx
      linarith
  linarith

theorem sum_cells {f : ℝ → ℝ} : ∀ {n : ℕ} (x : Fin (n + 1) → ℝ),
    (∀ i : Fin n, IntervalIntegrable f MeasureTheory.volume (x i.castSucc) (x i.succ)) →
    ∑ i : Fin n, ∫ t in x i.castSucc..x i.succ, f t = ∫ t in x 0..x (Fin.last n), f t
  | 0, x, _ => by simp
  | n + 1, x, h => by
    rw [Fin.sum_univ_castSucc]
    have ih := sum_cells (f := f) (fun i : Fin (n + 1) => x i.castSucc) (fun i => by
      have := h i.castSucc; simpa using this)
    have hI : ∀ {m : ℕ} (x : Fin (m + 1) → ℝ),
        (∀ i : Fin m, IntervalIntegrable f MeasureTheory.volume (x i.castSucc) (x i.succ)) →
        IntervalIntegrable f MeasureTheory.volume (x 0) (x (Fin.last m)) := by
      intro m
      induction m with
      | zero => intro x _; simp
      | succ m ihm =>
        intro x hx
        have := ihm (fun i => x i.castSucc) (fun i => by have := hx i.castSucc; simpa using this)
        exact this.trans (by have := hx (Fin.last m); simpa using this)
    have h0 := hI (fun i : Fin (n + 1) => x i.castSucc) (fun i => by
      have := h i.castSucc; simpa using this)
    have h1 := h (Fin.last n)
    have e := intervalIntegral.integral_add_adjacent_intervals h0 h1
    simp only [Fin.castSucc_zero] at ih e
    rw [← Fin.succ_last, ← e, ← ih]
    rfl

/-- The trapezoid rule over any increasing grid overestimates the integral of a convex function. -/
theorem integral_le_trapz {f : ℝ → ℝ} {S : Set ℝ} (hS : S.OrdConnected) (hf : ContinuousOn f S) (hc : ConvexOn ℝ S f)
    (x : Fin (n + 1) → ℝ) (hx : Monotone x) (hxS : ∀ i, x i ∈ S) :
    ∫ t in x 0..x (Fin.last n), f t ≤ trapz x (fun i => f (x i)) := by
  have hsub : ∀ i : Fin n, Icc (x i.castSucc) (x i.succ) ⊆ S := fun i => hS.out (hxS _) (hxS _)
  have hle : ∀ i : Fin n, x i.castSucc ≤ x i.succ := fun i => hx (Fin.castSucc_lt_succ).le
  rw [← sum_cells (f := f) x, trapz_eq]
  · apply Finset.sum_le_sum
    intro i _
    exact cell_le_trap (hle i) (hf.mono (hsub i)) (hc.subset (hsub i) (convex_Icc _ _))
  · intro i
    exact (hf.mono (by rw [uIcc_of_le (hle i)]; exact hsub i)).intervalIntegrable

theorem tangent_le {f : ℝ → ℝ} {S : Set ℝ} (hc : ConvexOn ℝ S f) {f' a x : ℝ} (ha : a ∈ S) (hx : x ∈ S)
    (hd : HasDerivAt f f' a) : f a + f' * (x - a) ≤ f x := by
  rcases lt_trichotomy x a with h | h | h
  · have := hc.slope_le_of_hasDerivAt hx ha h hd
    rw [slope_def_field, div_le_iff₀ (by linarith)] at this; linarith
  · subst h; simp
  · have := hc.le_slope_of_hasDerivAt ha hx h hd
    rw [slope_def_field, le_div_iff₀ (by linarith)] at this; linarith

/-- …and the excess of each cell is at most a quarter of the squared width times the change of slope. -/
theorem trapz_le_integral {f f' : ℝ → ℝ} {S : Set ℝ} (hS : S.OrdConnected) (hf : ContinuousOn f S)
    (hc : ConvexOn ℝ S f) (hd : ∀ t ∈ S, HasDerivAt f (f' t) t)
    (x : Fin (n + 1) → ℝ) (hx : Monotone x) (hxS : ∀ i, x i ∈ S) :
    trapz x (fun i => f (x i)) ≤ (∫ t in x 0..x (Fin.last n), f t)
      + ∑ i : Fin n, (x i.succ - x i.castSucc) ^ 2 / 4 * (f' (x i.succ) - f' (x i.castSucc)) := by
  have hsub : ∀ i : Fin n, Icc (x i.castSucc) (x i.succ) ⊆ S := fun i => hS.out (hxS _) (hxS _)
  have hle : ∀ i : Fin n, x i.castSucc ≤ x i.succ := fun i => hx (Fin.castSucc_lt_succ).le
  rw [← sum_cells (f := f) x, trapz_eq, ← Finset.sum_add_distrib]
  · apply Finset.sum_le_sum
    intro i _
    exact trap_le_cell (hle i) (hf.mono (hsub i))
      (fun t ht => tangent_le hc (hxS _) (hsub i ht) (hd _ (hxS _)))
      (fun t ht => tangent_le hc (hxS _) (hsub i ht) (hd _ (hxS _)))
  · intro i
    exact (hf.mono (by rw [uIcc_of_le (hle i)]; exact hsub i)).intervalIntegrable

end Dsps.Lemmas
