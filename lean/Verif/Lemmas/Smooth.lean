import Verif.Lemmas.Utils
import Mathlib.Analysis.Calculus.ContDiff.Deriv
import Mathlib.Analysis.Calculus.ContDiff.Operations

/-! Smoothness of the triweight kernel. -/
namespace Dsps.Lemmas
open Dsps.Utils Set Filter Topology

/-- derivative of `max 0 y ^ (k+2)` -/
theorem hasDerivAt_max_pow (k : ℕ) (y : ℝ) : HasDerivAt (fun y : ℝ => max 0 y ^ (k + 2)) ((k + 2) * max 0 y ^ (k + 1)) y := by
  rcases lt_trichotomy y 0 with h | h | h
  · rw [max_eq_left h.le]
    have : ((k : ℝ) + 2) * 0 ^ (k + 1) = 0 := by simp
    rw [this]
    refine (hasDerivAt_const y (0 : ℝ)).congr_of_eventuallyEq ?_
    filter_upwards [Iio_mem_nhds h] with u hu
    have hu' : u < 0 := hu
    rw [max_eq_left hu'.le]; simp
  · subst h
    have e : ((k : ℝ) + 2) * max 0 0 ^ (k + 1) = 0 := by simp
    rw [e, hasDerivAt_iff_isLittleO_nhds_zero]
    have : (fun h : ℝ => max 0 (0 + h) ^ (k + 2) - max 0 0 ^ (k + 2) - h • (0 : ℝ)) = fun h => max 0 h ^ (k + 2) := by
      funext h; simp
    rw [this]
    refine Asymptotics.isLittleO_of_tendsto (fun x hx => by rw [hx]; simp) ?_
    have hb : ∀ x : ℝ, |max 0 x ^ (k + 2) / x| ≤ |x| ^ (k + 1) := by
      intro x
      rcases le_or_gt x 0 with h | h
      · rw [max_eq_left h]; simp
      · rw [max_eq_right h.le, pow_succ, mul_div_assoc, div_self h.ne', mul_one]; exact (abs_pow x (k + 1)).le
    refine squeeze_zero_norm (a := fun x : ℝ => |x| ^ (k + 1)) (fun x => by rw [Real.norm_eq_abs]; exact hb x) ?_
    have : Tendsto (fun x : ℝ => |x| ^ (k + 1)) (𝓝 0) (𝓝 (|(0 : ℝ)| ^ (k + 1))) := (continuous_abs.pow _).tendsto 0
    simpa using this
  · rw [max_eq_right h.le]
    have := (hasDerivAt_pow (k + 2) y)
    push_cast at this
    refine (this.congr_of_eventuallyEq ?_).congr_deriv (by simp)
    filter_upwards [Ioi_mem_nhds h] with u hu
    have hu' : 0 < u := hu
    rw [max_eq_right hu'.le]

theorem contDiff_max_pow (k : ℕ) : ContDiff ℝ k (fun y : ℝ => max 0 y ^ (k + 1)) := by
  induction k with
  | zero => exact contDiff_zero.2 (by fun_prop)
  | succ k ih =>
    have : ((k + 1 : ℕ) : WithTop ℕ∞) = (k : WithTop ℕ∞) + 1 := by push_cast; rfl
    rw [this, contDiff_succ_iff_deriv]
    refine ⟨fun y => (hasDerivAt_max_pow k y).differentiableAt, by simp, ?_⟩
    rw [show deriv (fun y : ℝ => max 0 y ^ (k + 1 + 1)) = fun y => ((k : ℝ) + 2) * max 0 y ^ (k + 1) from
      funext fun y => (hasDerivAt_max_pow k y).deriv]
    exact contDiff_const.mul ih

theorem contDiff_twc : ContDiff ℝ 2 twc := by
  rw [show twc = fun z => 35 / 96 * max 0 (1 - (z / 3) ^ 2) ^ 3 from funext twc_eq_max]
  refine contDiff_const.mul ?_
  exact (contDiff_max_pow 2).comp (g := fun y : ℝ => max 0 y ^ 3) (f := fun z : ℝ => 1 - (z / 3) ^ 2) (by fun_prop)

theorem contDiff_twC : ContDiff ℝ 3 twC := by
  rw [show (3 : WithTop ℕ∞) = 2 + 1 from rfl, contDiff_succ_iff_deriv]
  refine ⟨fun z => (hasDerivAt_twC z).differentiableAt, by simp, ?_⟩
  rw [show deriv twC = twc from funext fun z => (hasDerivAt_twC z).deriv]
  exact contDiff_twc

end Dsps.Lemmas
