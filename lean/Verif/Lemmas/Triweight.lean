import Verif.Model.Utils
import Verif.Lemmas.Fin
import Mathlib.Analysis.Calculus.Deriv.MeanValue
import Mathlib.Analysis.Calculus.Deriv.Pow
import Mathlib.Analysis.Calculus.Deriv.Comp
import Mathlib.Tactic

/-! Calculus of the triweight kernel. -/
namespace Dsps.Lemmas
open Dsps.Utils Set

/-- the polynomial of the triweight CDF -/
noncomputable def twP (z : ℝ) : ℝ :=
  -5 * z ^ 7 / 69984 + 7 * z ^ 5 / 2592 - 35 * z ^ 3 / 864 + 35 * z / 96 + 1 / 2
/-- its derivative -/
noncomputable def twp (z : ℝ) : ℝ := 35 / 96 * (1 - (z / 3) ^ 2) ^ 3
/-- the standardised CDF -/
noncomputable def twC (z : ℝ) : ℝ := if z > 3 then 1 else if z < -3 then 0 else twP z
/-- the standardised density -/
noncomputable def twc (z : ℝ) : ℝ := if z < -3 ∨ z > 3 then 0 else twp z

theorem tw_cuml_kern_eq (x m h : ℝ) : tw_cuml_kern x m h = twC ((x - m) / h) := by
  simp only [tw_cuml_kern, twC, twP]

theorem triweight_gaussian_eq (x m h : ℝ) : triweight_gaussian x m h = twc ((x - m) / h) / h := by
  simp only [triweight_gaussian, twc, twp]
  split_ifs <;> simp

theorem hasDerivAt_twP (z : ℝ) : HasDerivAt twP (twp z) z := by
  have h7 := hasDerivAt_pow 7 z
  have h5 := hasDerivAt_pow 5 z
  have h3 := hasDerivAt_pow 3 z
  have h1 := hasDerivAt_id z
  have := ((((h7.const_mul (-5)).div_const 69984).add ((h5.const_mul 7).div_const 2592)).sub
    ((h3.const_mul 35).div_const 864)).add ((h1.const_mul 35).div_const 96)
  have := this.add_const (1 / 2)
  refine HasDerivAt.congr_deriv (f := twP) this ?_
  unfold twp; push_cast; ring

theorem hasDerivAt_twC (z : ℝ) : HasDerivAt twC (twc z) z := by
  rcases lt_trichotomy z (-3) with h | h | h
  · have : twc z = 0 := by simp [twc, h]
    rw [this]
    refine (hasDerivAt_const z (0:ℝ)).congr_of_eventuallyEq ?_
    filter_upwards [Iio_mem_nhds h] with y hy
    have hy' : y < -3 := hy
    simp [twC, hy', not_lt.mpr (by linarith : y ≤ 3)]
  · subst h
    have e : twc (-3) = twp (-3) := by simp [twc]; 
    have e0 : twp (-3) = 0 := by norm_num [twp]
    rw [e]
    have l : HasDerivWithinAt twC (twp (-3)) (Iic (-3)) (-3) := by
      rw [e0]
      refine ((hasDerivWithinAt_const (-3:ℝ) (Iic (-3)) (0:ℝ))).congr ?_ ?_
      · intro y hy
        have hy' : y ≤ -3 := hy
        rcases hy'.lt_or_eq with h | h
        · simp [twC, h, not_lt.mpr (by linarith : y ≤ 3)]
        · subst h; norm_num [twC, twP]
      · norm_num [twC, twP]
    have r : HasDerivWithinAt twC (twp (-3)) (Icc (-3) 3) (-3) := by
      refine (hasDerivAt_twP (-3)).hasDerivWithinAt.congr ?_ ?_
      · intro y hy
        simp [twC, not_lt.mpr hy.1, not_lt.mpr hy.2]
      · norm_num [twC]
    have := l.union r
    refine this.hasDerivAt ?_
    filter_upwards [Iio_mem_nhds (by norm_num : (-3:ℝ) < 3)] with y hy
    rcases le_total y (-3) with h | h
    · exact Or.inl h
    · exact Or.inr ⟨h, le_of_lt hy⟩
  · rcases lt_trichotomy z 3 with g | g | g
    · have : twc z = twp z := by simp [twc, not_lt.mpr h.le, not_lt.mpr g.le]
      rw [this]
      refine (hasDerivAt_twP z).congr_of_eventuallyEq ?_
      filter_upwards [Ioo_mem_nhds h g] with y hy
      simp [twC, not_lt.mpr hy.1.le, not_lt.mpr hy.2.le]
    · subst g
      have e : twc 3 = twp 3 := by norm_num [twc]
      have e0 : twp 3 = 0 := by norm_num [twp]
      rw [e]
      have l : HasDerivWithinAt twC (twp 3) (Ici 3) 3 := by
        rw [e0]
        refine ((hasDerivWithinAt_const (3:ℝ) (Ici 3) (1:ℝ))).congr ?_ ?_
        · intro y hy
          have hy' : 3 ≤ y := hy
          rcases hy'.lt_or_eq with h | h
          · simp [twC, h]
          · subst h; norm_num [twC, twP]
        · norm_num [twC, twP]
      have r : HasDerivWithinAt twC (twp 3) (Icc (-3) 3) 3 := by
        refine (hasDerivAt_twP 3).hasDerivWithinAt.congr ?_ ?_
        · intro y hy
          simp [twC, not_lt.mpr hy.1, not_lt.mpr hy.2]
        · norm_num [twC]
      have := l.union r
      refine this.hasDerivAt ?_
      filter_upwards [Ioi_mem_nhds (by norm_num : (-3:ℝ) < 3)] with y hy
      rcases le_total 3 y with h | h
      · exact Or.inl h
      · exact Or.inr ⟨le_of_lt hy, h⟩
    · have : twc z = 0 := by simp [twc, g]
      rw [this]
      refine (hasDerivAt_const z (1:ℝ)).congr_of_eventuallyEq ?_
      filter_upwards [Ioi_mem_nhds g] with y hy
      have hy' : 3 < y := hy
      simp [twC, hy']

theorem twp_nonneg {z : ℝ} (h1 : -3 ≤ z) (h2 : z ≤ 3) : 0 ≤ twp z := by
  unfold twp
  have : 0 ≤ 1 - (z / 3) ^ 2 := by nlinarith
  positivity

theorem twc_nonneg (z : ℝ) : 0 ≤ twc z := by
  unfold twc
  split_ifs with h
  · exact le_refl _
  · push Not at h; exact twp_nonneg h.1 h.2

theorem twC_mono : Monotone twC :=
  monotone_of_deriv_nonneg (fun z => (hasDerivAt_twC z).differentiableAt)
    (fun z => by rw [(hasDerivAt_twC z).deriv]; exact twc_nonneg z)

theorem twC_of_le {z : ℝ} (h : z ≤ -3) : twC z = 0 := by
  rcases h.lt_or_eq with h | h
  · simp [twC, h, not_lt.mpr (by linarith : z ≤ 3)]
  · subst h; norm_num [twC, twP]

theorem twC_of_ge {z : ℝ} (h : 3 ≤ z) : twC z = 1 := by
  rcases h.lt_or_eq with h | h
  · simp [twC, h]
  · subst h; norm_num [twC, twP]

theorem twC_zero : twC 0 = 1 / 2 := by norm_num [twC, twP]

theorem twC_nonneg (z : ℝ) : 0 ≤ twC z := by
  rcases le_total z (-3) with h | h
  · rw [twC_of_le h]
  · rw [← twC_of_le (le_refl (-3))]; exact twC_mono h

theorem twC_le_one (z : ℝ) : twC z ≤ 1 := by
  rcases le_total z 3 with h | h
  · rw [← twC_of_ge (le_refl 3)]; exact twC_mono h
  · rw [twC_of_ge h]

theorem twC_neg (z : ℝ) : twC (-z) = 1 - twC z := by
  rcases le_total z (-3) with h | h
  · rw [twC_of_le h, twC_of_ge (by linarith)]; ring
  · rcases le_total z 3 with g | g
    · simp only [twC, twP, not_lt.mpr h, not_lt.mpr g, gt_iff_lt, if_false,
        not_lt.mpr (by linarith : -z ≤ 3), not_lt.mpr (by linarith : -3 ≤ -z)]
      ring
    · rw [twC_of_ge g, twC_of_le (by linarith)]; ring

theorem twC_strictMonoOn : StrictMonoOn twC (Icc (-3) 3) := by
  apply strictMonoOn_of_deriv_pos (convex_Icc _ _)
  · exact fun z _ => (hasDerivAt_twC z).continuousAt.continuousWithinAt
  · intro z hz
    rw [interior_Icc] at hz
    rw [(hasDerivAt_twC z).deriv]
    have : twc z = twp z := by simp [twc, not_lt.mpr hz.1.le, not_lt.mpr hz.2.le]
    rw [this, twp]
    have : 0 < 1 - (z / 3) ^ 2 := by nlinarith [hz.1, hz.2]
    positivity

theorem twC_pos {z : ℝ} (h : -3 < z) : 0 < twC z := by
  rcases le_total z 3 with g | g
  · have := twC_strictMonoOn ⟨le_refl _, by norm_num⟩ ⟨h.le, g⟩ h
    rwa [twC_of_le (le_refl _)] at this
  · rw [twC_of_ge g]; norm_num

theorem twC_lt_one {z : ℝ} (h : z < 3) : twC z < 1 := by
  have := twC_pos (z := -z) (by linarith)
  rw [twC_neg] at this; linarith

end Dsps.Lemmas
