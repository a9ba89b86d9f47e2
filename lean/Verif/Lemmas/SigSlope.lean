import Verif.Lemmas.Utils
import Mathlib.Analysis.Calculus.Deriv.MeanValue
import Mathlib.Analysis.Calculus.Deriv.Slope
import Mathlib.Analysis.SpecialFunctions.ExpDeriv

/-! Derivative and monotonicity of `_sig_slope`. -/
namespace Dsps.Lemmas
open Jnp Dsps.Utils

theorem sigmoid_eq (u : ℝ) : Jnp.sigmoid u = Real.exp u / (1 + Real.exp u) := by
  unfold Jnp.sigmoid
  rw [Real.exp_neg]
  have := Real.exp_pos u
  field_simp
  ring

theorem hasDerivAt_sigmoid (u : ℝ) : HasDerivAt Jnp.sigmoid (Jnp.sigmoid u * (1 - Jnp.sigmoid u)) u := by
  have hf : Jnp.sigmoid = fun u => Real.exp u / (1 + Real.exp u) := funext sigmoid_eq
  rw [hf]
  have h1 : HasDerivAt (fun u => 1 + Real.exp u) (Real.exp u) u := (Real.hasDerivAt_exp u).const_add 1
  have hp : 1 + Real.exp u ≠ 0 := by positivity
  refine ((Real.hasDerivAt_exp u).div h1 hp).congr_deriv ?_
  field_simp

/-- The derivative of `_sig_slope`. -/
noncomputable def sigSlopeDeriv (x xtp x0 k lo hi : ℝ) : ℝ :=
  hi + (lo - hi) * (1 - Jnp.sigmoid (k * (x - x0))) * (1 - k * (x - xtp) * Jnp.sigmoid (k * (x - x0)))

theorem hasDerivAt_sig_slope (x xtp ytp x0 k lo hi : ℝ) :
    HasDerivAt (fun x => sig_slope x xtp ytp x0 k lo hi) (sigSlopeDeriv x xtp x0 k lo hi) x := by
  have h0 : HasDerivAt (fun x : ℝ => k * (x - x0)) k x := by
    simpa using ((hasDerivAt_id x).sub_const x0).const_mul k
  have h1 : HasDerivAt (fun x => Jnp.sigmoid (k * (x - x0)))
      (Jnp.sigmoid (k * (x - x0)) * (1 - Jnp.sigmoid (k * (x - x0))) * k) x :=
    HasDerivAt.comp (h₂ := Jnp.sigmoid) x (hasDerivAt_sigmoid (k * (x - x0))) h0
  have h2 := (((h1.const_mul (hi - lo)).const_add lo).mul ((hasDerivAt_id x).sub_const xtp)).const_add ytp
  refine h2.congr_deriv ?_
  simp only [sigSlopeDeriv, id]
  ring

/-- Lower bound on the derivative, with equality at `exp u = lo/hi`. -/
theorem sigSlopeDeriv_mul (x xtp x0 k lo hi : ℝ) :
    sigSlopeDeriv x xtp x0 k lo hi * (1 + Real.exp (k * (x - x0))) ^ 2 =
      Real.exp (k * (x - x0)) * (hi * Real.exp (k * (x - x0)) + lo * Real.exp (-(k * (x - x0)))
        + (2 * hi + (lo - hi) * (1 - k * (x - xtp)))) := by
  unfold sigSlopeDeriv
  rw [sigmoid_eq, Real.exp_neg]
  have := Real.exp_pos (k * (x - x0))
  field_simp
  ring

variable {xtp x0 k lo hi : ℝ}

/-- The condition under which the relation is monotone. -/
theorem sigSlopeDeriv_lower (hhi : 0 < hi) (hlo : hi < lo) (x : ℝ) :
    4 * hi + (lo - hi) * (2 - k * (x0 - xtp)) - (lo - hi) * Real.log (lo / hi)
      ≤ hi * Real.exp (k * (x - x0)) + lo * Real.exp (-(k * (x - x0)))
        + (2 * hi + (lo - hi) * (1 - k * (x - xtp))) := by
  set u := k * (x - x0) with hu
  have e1 : k * (x - xtp) = u + k * (x0 - xtp) := by rw [hu]; ring
  have hpos : 0 < lo / hi := div_pos (by linarith) hhi
  set L := Real.log (lo / hi) with hL
  have hE : Real.exp L = lo / hi := Real.exp_log hpos
  have h1 : lo * (1 + (u - L)) ≤ hi * Real.exp u := by
    have h := Real.add_one_le_exp (u - L)
    rw [Real.exp_sub, hE] at h
    have hl : 0 < lo := by linarith
    have : hi * Real.exp u = lo * (Real.exp u / (lo / hi)) := by field_simp
    rw [this]
    nlinarith
  have h2 : hi * (1 - (u - L)) ≤ lo * Real.exp (-u) := by
    have h := Real.add_one_le_exp (-(u - L))
    rw [neg_sub, Real.exp_sub, hE] at h
    have : lo * Real.exp (-u) = hi * (lo / hi / Real.exp u) := by rw [Real.exp_neg]; field_simp
    rw [this]
    nlinarith
  rw [e1]
  nlinarith

theorem sigSlopeDeriv_pos (hhi : 0 < hi) (hlo : hi < lo)
    (hc : Real.log (lo / hi) < 2 + 4 * hi / (lo - hi) - k * (x0 - xtp)) (x : ℝ) :
    0 < sigSlopeDeriv x xtp x0 k lo hi := by
  have h := sigSlopeDeriv_lower (xtp := xtp) (x0 := x0) (k := k) hhi hlo x
  have hm := sigSlopeDeriv_mul x xtp x0 k lo hi
  have hd : 0 < lo - hi := by linarith
  have hc' : 0 < 4 * hi + (lo - hi) * (2 - k * (x0 - xtp)) - (lo - hi) * Real.log (lo / hi) := by
    have : (lo - hi) * Real.log (lo / hi) < (lo - hi) * (2 + 4 * hi / (lo - hi) - k * (x0 - xtp)) :=
      mul_lt_mul_of_pos_left hc hd
    have e : (lo - hi) * (2 + 4 * hi / (lo - hi) - k * (x0 - xtp)) = 4 * hi + (lo - hi) * (2 - k * (x0 - xtp)) := by
      field_simp; ring
    linarith
  have hp : 0 < (1 + Real.exp (k * (x - x0))) ^ 2 := by positivity
  have : 0 < sigSlopeDeriv x xtp x0 k lo hi * (1 + Real.exp (k * (x - x0))) ^ 2 := by
    rw [hm]; exact mul_pos (Real.exp_pos _) (by linarith)
  exact pos_of_mul_pos_left this hp.le

theorem sigSlopeDeriv_nonneg (hhi : 0 < hi) (hlo : hi < lo)
    (hc : Real.log (lo / hi) ≤ 2 + 4 * hi / (lo - hi) - k * (x0 - xtp)) (x : ℝ) :
    0 ≤ sigSlopeDeriv x xtp x0 k lo hi := by
  have h := sigSlopeDeriv_lower (xtp := xtp) (x0 := x0) (k := k) hhi hlo x
  have hm := sigSlopeDeriv_mul x xtp x0 k lo hi
  have hd : 0 < lo - hi := by linarith
  have hc' : 0 ≤ 4 * hi + (lo - hi) * (2 - k * (x0 - xtp)) - (lo - hi) * Real.log (lo / hi) := by
    have : (lo - hi) * Real.log (lo / hi) ≤ (lo - hi) * (2 + 4 * hi / (lo - hi) - k * (x0 - xtp)) :=
      mul_le_mul_of_nonneg_left hc hd.le
    have e : (lo - hi) * (2 + 4 * hi / (lo - hi) - k * (x0 - xtp)) = 4 * hi + (lo - hi) * (2 - k * (x0 - xtp)) := by
      field_simp; ring
    linarith
  have hp : 0 < (1 + Real.exp (k * (x - x0))) ^ 2 := by positivity
  have : 0 ≤ sigSlopeDeriv x xtp x0 k lo hi * (1 + Real.exp (k * (x - x0))) ^ 2 := by
    rw [hm]; exact mul_nonneg (Real.exp_pos _).le (by linarith)
  exact nonneg_of_mul_nonneg_left this hp

/-- The bound is attained. -/
theorem sigSlopeDeriv_neg (hk : 0 < k) (hhi : 0 < hi) (hlo : hi < lo)
    (hc : 2 + 4 * hi / (lo - hi) - k * (x0 - xtp) < Real.log (lo / hi)) :
    sigSlopeDeriv (x0 + Real.log (lo / hi) / k) xtp x0 k lo hi < 0 := by
  set L := Real.log (lo / hi) with hL
  have hm := sigSlopeDeriv_mul (x0 + L / k) xtp x0 k lo hi
  have hd : 0 < lo - hi := by linarith
  have e1 : k * (x0 + L / k - x0) = L := by field_simp; ring
  have e2 : k * (x0 + L / k - xtp) = L + k * (x0 - xtp) := by field_simp; ring
  have hE : Real.exp L = lo / hi := Real.exp_log (div_pos (by linarith) hhi)
  rw [e1, e2, Real.exp_neg, hE] at hm
  have hlo0 : 0 < lo := by linarith
  have e3 : hi * (lo / hi) + lo * (lo / hi)⁻¹ = lo + hi := by field_simp
  have hneg : (lo + hi) + (2 * hi + (lo - hi) * (1 - (L + k * (x0 - xtp)))) < 0 := by
    have : (lo - hi) * (2 + 4 * hi / (lo - hi) - k * (x0 - xtp)) < (lo - hi) * L :=
      mul_lt_mul_of_pos_left hc hd
    have e : (lo - hi) * (2 + 4 * hi / (lo - hi) - k * (x0 - xtp)) = 4 * hi + (lo - hi) * (2 - k * (x0 - xtp)) := by
      field_simp; ring
    nlinarith
  rw [e3] at hm
  have hp : 0 < (1 + lo / hi) ^ 2 := by positivity
  have : sigSlopeDeriv (x0 + L / k) xtp x0 k lo hi * (1 + lo / hi) ^ 2 < 0 := by
    rw [hm]; exact mul_neg_of_pos_of_neg (div_pos hlo0 hhi) hneg
  by_contra hcon
  exact absurd this (not_lt.mpr (mul_nonneg (not_lt.mp hcon) hp.le))

theorem sig_slope_monotone_iff (ytp : ℝ) (hk : 0 < k) (hhi : 0 < hi) (hlo : hi < lo) :
    Monotone (fun x => sig_slope x xtp ytp x0 k lo hi) ↔
      Real.log (lo / hi) ≤ 2 + 4 * hi / (lo - hi) - k * (x0 - xtp) := by
  constructor
  · intro hm
    by_contra hc
    have h := sigSlopeDeriv_neg hk hhi hlo (not_le.mp hc)
    have hder := hasDerivAt_sig_slope (x0 + Real.log (lo / hi) / k) xtp ytp x0 k lo hi
    have := Monotone.deriv_nonneg hm (x := x0 + Real.log (lo / hi) / k)
    rw [hder.deriv] at this
    linarith
  · intro hc
    exact monotone_of_deriv_nonneg (fun x => (hasDerivAt_sig_slope x xtp ytp x0 k lo hi).differentiableAt)
      (fun x => by rw [(hasDerivAt_sig_slope x xtp ytp x0 k lo hi).deriv]; exact sigSlopeDeriv_nonneg hhi hlo hc x)

theorem sig_slope_strictMono (ytp : ℝ) (hhi : 0 < hi) (hlo : hi < lo)
    (hc : Real.log (lo / hi) < 2 + 4 * hi / (lo - hi) - k * (x0 - xtp)) :
    StrictMono (fun x => sig_slope x xtp ytp x0 k lo hi) :=
  strictMono_of_deriv_pos (fun x => by
    rw [(hasDerivAt_sig_slope x xtp ytp x0 k lo hi).deriv]; exact sigSlopeDeriv_pos hhi hlo hc x)

end Dsps.Lemmas
