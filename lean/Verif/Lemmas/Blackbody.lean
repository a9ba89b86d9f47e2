import Verif.Model.Blackbody
import Verif.SpecBlackbody
import Mathlib.Analysis.Calculus.Deriv.MeanValue
import Mathlib.Analysis.SpecialFunctions.ExpDeriv
import Mathlib.Analysis.Complex.ExponentialBounds

/-! Facts about the Planck shape `xⁿ/(eˣ-1)`. -/
namespace Dsps.Lemmas
open Dsps.Blackbody Set

/-- `xⁿ/(eˣ-1)` -/
noncomputable def shape (n : ℕ) (x : ℝ) : ℝ := x ^ n / (Real.exp x - 1)
/-- the sign of its derivative -/
noncomputable def wienG (n : ℕ) (x : ℝ) : ℝ := Real.exp x * (n - x) - n

theorem expm1_pos {x : ℝ} (h : 0 < x) : 0 < Real.exp x - 1 := by
  have := Real.add_one_lt_exp h.ne'; linarith

theorem hasDerivAt_wienG (n : ℕ) (x : ℝ) : HasDerivAt (wienG n) (Real.exp x * (n - 1 - x)) x := by
  have h1 : HasDerivAt (fun x : ℝ => (n : ℝ) - x) (-1) x := by
    simpa using (hasDerivAt_id x).const_sub (n : ℝ)
  have := ((Real.hasDerivAt_exp x).mul h1).sub_const (n : ℝ)
  exact this.congr_deriv (by ring)

theorem wienG_zero (n : ℕ) : wienG n 0 = 0 := by simp [wienG]

theorem wienG_pos {n : ℕ} {a x : ℝ} (ha : 0 < wienG n a) (h0 : 0 < x) (hx : x ≤ a) : 0 < wienG n x := by
  have hc : Continuous (wienG n) := by unfold wienG; fun_prop
  rcases le_total x (n - 1) with h | h
  · have hm : StrictMonoOn (wienG n) (Icc 0 (n - 1)) := by
      apply strictMonoOn_of_deriv_pos (convex_Icc _ _) hc.continuousOn
      intro y hy
      rw [interior_Icc] at hy
      rw [(hasDerivAt_wienG n y).deriv]
      exact mul_pos (Real.exp_pos _) (by linarith [hy.2])
    have := hm ⟨le_rfl, h0.le.trans h⟩ ⟨h0.le, h⟩ h0
    rwa [wienG_zero] at this
  · have hm : AntitoneOn (wienG n) (Ici ((n : ℝ) - 1)) := by
      apply antitoneOn_of_deriv_nonpos (convex_Ici _) hc.continuousOn
        (fun y _ => (hasDerivAt_wienG n y).differentiableAt.differentiableWithinAt)
      intro y hy
      rw [interior_Ici] at hy
      rw [(hasDerivAt_wienG n y).deriv]
      exact mul_nonpos_of_nonneg_of_nonpos (Real.exp_pos _).le (by linarith [mem_Ioi.1 hy])
    exact ha.trans_le (hm h (h.trans hx) hx)

theorem wienG_neg {n : ℕ} {b x : ℝ} (hb : wienG n b < 0) (hb1 : (n : ℝ) - 1 ≤ b) (hx : b ≤ x) : wienG n x < 0 := by
  have hc : Continuous (wienG n) := by unfold wienG; fun_prop
  have hm : AntitoneOn (wienG n) (Ici ((n : ℝ) - 1)) := by
    apply antitoneOn_of_deriv_nonpos (convex_Ici _) hc.continuousOn
      (fun y _ => (hasDerivAt_wienG n y).differentiableAt.differentiableWithinAt)
    intro y hy
    rw [interior_Ici] at hy
    rw [(hasDerivAt_wienG n y).deriv]
    exact mul_nonpos_of_nonneg_of_nonpos (Real.exp_pos _).le (by linarith [mem_Ioi.1 hy])
  exact (hm hb1 (hb1.trans hx) hx).trans_lt hb

theorem hasDerivAt_shape (n : ℕ) {x : ℝ} (hx : 0 < x) :
    HasDerivAt (shape (n + 1)) (x ^ n * wienG (n + 1) x / (Real.exp x - 1) ^ 2) x := by
  have h := (hasDerivAt_pow (n + 1) x).div ((Real.hasDerivAt_exp x).sub_const 1) (expm1_pos hx).ne'
  refine h.congr_deriv ?_
  unfold wienG
  congr 1
  push_cast
  ring_nf

theorem shape_increasing {n : ℕ} {a : ℝ} (ha : 0 < wienG (n + 1) a) : StrictMonoOn (shape (n + 1)) (Ioc 0 a) := by
  apply strictMonoOn_of_deriv_pos (convex_Ioc _ _)
  · intro x hx
    exact (hasDerivAt_shape n hx.1).continuousAt.continuousWithinAt
  · intro x hx
    rw [interior_Ioc] at hx
    rw [(hasDerivAt_shape n hx.1).deriv]
    have := expm1_pos hx.1
    have := wienG_pos ha hx.1 hx.2.le
    have := hx.1
    positivity

theorem shape_decreasing {n : ℕ} {b : ℝ} (hb : wienG (n + 1) b < 0) (hb1 : (n : ℝ) ≤ b) (hb0 : 0 < b) :
    StrictAntiOn (shape (n + 1)) (Ici b) := by
  apply strictAntiOn_of_deriv_neg (convex_Ici _)
  · intro x hx
    exact (hasDerivAt_shape n (hb0.trans_le hx)).continuousAt.continuousWithinAt
  · intro x hx
    rw [interior_Ici] at hx
    have hx : b < x := hx
    have h0 := hb0.trans hx
    rw [(hasDerivAt_shape n h0).deriv]
    have := expm1_pos h0
    have := wienG_neg hb (by push_cast; linarith) hx.le
    apply div_neg_of_neg_of_pos (mul_neg_of_pos_of_neg (by positivity) this)
    positivity

/-! numerical values -/

theorem exp_lower {t : ℝ} (ht : 0 ≤ t) (ht1 : t ≤ 1) : 1 + t + t ^ 2 / 2 + t ^ 3 / 6 ≤ Real.exp t := by
  have := Real.sum_le_exp_of_nonneg ht 4
  simp [Finset.sum_range_succ, Nat.factorial] at this
  linarith

/-- exp(-t) sandwich for small t -/
theorem exp_neg_upper {t : ℝ} (ht : 0 ≤ t) (ht1 : t ≤ 1) : Real.exp (-t) ≤ 1 / (1 + t + t ^ 2 / 2 + t ^ 3 / 6) := by
  rw [Real.exp_neg, ← one_div]
  exact one_div_le_one_div_of_le (by positivity) (exp_lower ht ht1)

theorem exp_neg_lower {t : ℝ} (ht : 0 ≤ t) (ht1 : t ≤ 1) : 1 - t ≤ Real.exp (-t) := by
  have := Real.add_one_le_exp (-t); linarith

theorem exp_nat (n : ℕ) : (2.7182818283 : ℝ) ^ n ≤ Real.exp n ∧ Real.exp n ≤ (2.7182818286 : ℝ) ^ n := by
  have e : Real.exp n = Real.exp 1 ^ n := by rw [← Real.exp_nat_mul]; simp
  rw [e]
  exact ⟨pow_le_pow_left₀ (by norm_num) Real.exp_one_gt_d9.le n,
    pow_le_pow_left₀ (Real.exp_pos _).le Real.exp_one_lt_d9.le n⟩

theorem exp_of_sub {m : ℕ} {x t : ℝ} (h : x = m - t) : Real.exp x = Real.exp m * Real.exp (-t) := by
  rw [h, ← Real.exp_add]; ring_nf

end Dsps.Lemmas
