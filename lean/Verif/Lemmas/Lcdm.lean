import Verif.Lemmas.Cosmology
import Verif.Lemmas.Quadrature
import Verif.Lemmas.Fin

/-! Flat LCDM: derivatives of the distance and lookback-time integrands, convexity, quadrature errors. -/
namespace Dsps.Lemmas
open Jnp Dsps.Utils Dsps.FlatWcdm Spec Set
open scoped BigOperators

variable {n : ℕ}

/-- `E²` in LCDM -/
noncomputable def LP (Om z : ℝ) : ℝ := Om * (1 + z) ^ 3 + (1 - Om)
/-- matter fraction -/
noncomputable def Lth (Om z : ℝ) : ℝ := Om * (1 + z) ^ 3 / LP Om z
/-- `1/E` -/
noncomputable def Lf (Om z : ℝ) : ℝ := 1 / Real.sqrt (LP Om z)
/-- `1/(E (1+z))` -/
noncomputable def Lq (Om z : ℝ) : ℝ := 1 / Real.sqrt (LP Om z) / (1 + z)
/-- `1/(1+z)` -/
noncomputable def Lv (z : ℝ) : ℝ := 1 / (1 + z)

theorem friedmann_lcdm (Om : ℝ) {z : ℝ} (_hz : -1 < z) : friedmann Om (-1) 0 z = LP Om z := by
  simp [friedmann, LP, darkEnergyDensity]

theorem Ez_lcdm (Om : ℝ) {z : ℝ} (hz : -1 < z) : Ez z Om (-1) 0 = Real.sqrt (LP Om z) := by
  rw [Ez_eq hz, friedmann_lcdm Om hz]

theorem LP_pos {Om z : ℝ} (hO : PhysicalOm Om) (hz : -1 < z) : 0 < LP Om z := by
  rw [← friedmann_lcdm Om hz]; exact friedmann_pos hz hO _ _

theorem Lth_nonneg {Om z : ℝ} (hO : PhysicalOm Om) (hz : -1 < z) : 0 ≤ Lth Om z := by
  have : 0 < 1 + z := by linarith
  exact div_nonneg (mul_nonneg hO.1 (by positivity)) (LP_pos hO hz).le

theorem Lth_le_one {Om z : ℝ} (hO : PhysicalOm Om) (hz : -1 < z) : Lth Om z ≤ 1 := by
  unfold Lth
  rw [div_le_one (LP_pos hO hz)]
  unfold LP; linarith [hO.2]

theorem Lf_pos {Om z : ℝ} (hO : PhysicalOm Om) (hz : -1 < z) : 0 < Lf Om z :=
  one_div_pos.2 (Real.sqrt_pos.2 (LP_pos hO hz))

theorem Lq_eq (Om z : ℝ) : Lq Om z = Lf Om z * Lv z := by unfold Lq Lf Lv; ring

theorem Lv_pos {z : ℝ} (hz : -1 < z) : 0 < Lv z := one_div_pos.2 (by linarith)
theorem Lv_le_one {z : ℝ} (hz : 0 ≤ z) : Lv z ≤ 1 := by
  unfold Lv; rw [div_le_one (by linarith)]; linarith
theorem Lq_pos {Om z : ℝ} (hO : PhysicalOm Om) (hz : -1 < z) : 0 < Lq Om z := by
  rw [Lq_eq]; exact mul_pos (Lf_pos hO hz) (Lv_pos hz)

theorem one_le_LP {Om z : ℝ} (hO : PhysicalOm Om) (hz : 0 ≤ z) : 1 ≤ LP Om z := by
  have : 1 ≤ (1 + z) ^ 3 := one_le_pow₀ (by linarith)
  unfold LP; nlinarith [hO.1]

theorem LP_le {Om z : ℝ} (hO : PhysicalOm Om) (hz : 0 ≤ z) : LP Om z ≤ (1 + z) ^ 3 := by
  have : 1 ≤ (1 + z) ^ 3 := one_le_pow₀ (by linarith)
  unfold LP; nlinarith [hO.2]

theorem Lf_le_one {Om z : ℝ} (hO : PhysicalOm Om) (hz : 0 ≤ z) : Lf Om z ≤ 1 := by
  unfold Lf
  have := Real.one_le_sqrt.2 (one_le_LP hO hz)
  rw [div_le_one (by linarith)]; exact this

/-! ### derivatives -/

theorem Lv_deriv {z : ℝ} (hz : -1 < z) : HasDerivAt Lv (-(Lv z) ^ 2) z := by
  have h := (((hasDerivAt_id z).const_add 1).inv (by simp; linarith))
  have e : Lv = fun y => (1 + id y)⁻¹ := by funext y; simp [Lv]
  rw [e]
  refine h.congr_deriv ?_
  have : 1 + z ≠ 0 := by linarith
  simp; field_simp

theorem LP_deriv (Om z : ℝ) : HasDerivAt (LP Om) (3 * Om * (1 + z) ^ 2) z := by
  have h := (((((hasDerivAt_id z).const_add 1).pow 3).const_mul Om).add_const (1 - Om))
  refine h.congr_deriv ?_
  simp; ring

theorem Lf_deriv {Om z : ℝ} (hO : PhysicalOm Om) (hz : -1 < z) :
    HasDerivAt (Lf Om) (-(3 / 2) * Lth Om z * Lv z * Lf Om z) z := by
  have hP := LP_pos hO hz
  have h := ((LP_deriv Om z).sqrt hP.ne').inv (Real.sqrt_pos.2 hP).ne'
  have e : Lf Om = fun y => (Real.sqrt (LP Om y))⁻¹ := by funext y; simp [Lf]
  rw [e]
  refine h.congr_deriv ?_
  simp only
  unfold Lth Lv
  have hs := Real.sqrt_pos.2 hP
  have hsq := Real.sq_sqrt hP.le
  have hu : 1 + z ≠ 0 := by linarith
  set s := Real.sqrt (LP Om z) with hsdef
  rw [← hsq]
  field_simp

theorem Lth_deriv {Om z : ℝ} (hO : PhysicalOm Om) (hz : -1 < z) :
    HasDerivAt (Lth Om) (3 * Lth Om z * (1 - Lth Om z) * Lv z) z := by
  have hP := LP_pos hO hz
  have h := (((((hasDerivAt_id z).const_add 1).pow 3).const_mul Om)).div (LP_deriv Om z) hP.ne'
  refine h.congr_deriv ?_
  unfold Lth Lv
  have hu : 1 + z ≠ 0 := by linarith
  simp
  field_simp

theorem Lq_deriv {Om z : ℝ} (hO : PhysicalOm Om) (hz : -1 < z) :
    HasDerivAt (Lq Om) (-(1 + 3 / 2 * Lth Om z) * Lv z * Lq Om z) z := by
  have h := (Lf_deriv hO hz).mul (Lv_deriv hz)
  have e : Lq Om = fun y => Lf Om y * Lv y := by funext y; rw [Lq_eq]
  rw [e]
  refine h.congr_deriv ?_
  ring

/-- product rule for `φ · A(θ, v)` -/
theorem Lq_deriv2 {Om z : ℝ} (hO : PhysicalOm Om) (hz : -1 < z) :
    HasDerivAt (fun z => -(1 + 3 / 2 * Lth Om z) * Lv z * Lq Om z)
      (Lq Om z * Lv z ^ 2 * (2 + 27 / 4 * Lth Om z ^ 2)) z := by
  have h := ((((Lth_deriv hO hz).const_mul (3 / 2)).const_add 1).neg.mul (Lv_deriv hz)).mul (Lq_deriv hO hz)
  refine h.congr_deriv ?_
  simp
  ring

theorem Lf_deriv2 {Om z : ℝ} (hO : PhysicalOm Om) (hz : -1 < z) :
    HasDerivAt (fun z => -(3 / 2) * Lth Om z * Lv z * Lf Om z)
      (Lf Om z * Lv z ^ 2 * (27 / 4 * Lth Om z ^ 2 - 3 * Lth Om z)) z := by
  have h := (((Lth_deriv hO hz).const_mul (-(3 / 2))).mul (Lv_deriv hz)).mul (Lf_deriv hO hz)
  refine h.congr_deriv ?_
  simp
  ring

/-- `d/dz (z/E)` -/
noncomputable def Lg (Om z : ℝ) : ℝ := Lf Om z * (1 - 3 / 2 * (Lth Om z * (1 - Lv z)))

theorem Lg_eq {Om z : ℝ} (hz : -1 < z) : Lg Om z = Lf Om z + z * (-(3 / 2) * Lth Om z * Lv z * Lf Om z) := by
  have : 1 - Lv z = z * Lv z := by unfold Lv; have : 1 + z ≠ 0 := by linarith
                                   field_simp; ring
  unfold Lg; rw [this]; ring

theorem Lg_deriv {Om z : ℝ} (hO : PhysicalOm Om) (hz : -1 < z) :
    HasDerivAt (Lg Om) (Lf Om z * (Lv z *
      (-3 * Lth Om z + (1 - Lv z) * (27 / 4 * Lth Om z ^ 2 - 3 * Lth Om z)))) z := by
  have h := (Lf_deriv hO hz).mul
    ((((Lth_deriv hO hz).mul ((Lv_deriv hz).const_sub 1)).const_mul (3 / 2)).const_sub 1)
  refine h.congr_deriv ?_
  simp
  ring

theorem Lg_deriv2 {Om z : ℝ} (hO : PhysicalOm Om) (hz : -1 < z) :
    HasDerivAt (fun z => Lf Om z * (Lv z *
      (-3 * Lth Om z + (1 - Lv z) * (27 / 4 * Lth Om z ^ 2 - 3 * Lth Om z))))
     (Lf Om z * Lv z ^ 2 * (3 * (27 / 4 * Lth Om z ^ 2 - 3 * Lth Om z)
      + (1 - Lv z) * (-(405 / 8) * Lth Om z ^ 3 + 81 / 2 * Lth Om z ^ 2 - 3 * Lth Om z))) z := by
  have ht := Lth_deriv hO hz
  have h := (Lf_deriv hO hz).mul ((Lv_deriv hz).mul
    ((ht.const_mul (-3)).add (((Lv_deriv hz).const_sub 1).mul
      (((ht.pow 2).const_mul (27 / 4)).sub (ht.const_mul 3)))))
  refine h.congr_deriv ?_
  simp
  ring

/-- `d/dz (z/(E(1+z)))` -/
noncomputable def Lgq (Om z : ℝ) : ℝ := Lq Om z * (1 - (1 - Lv z) * (1 + 3 / 2 * Lth Om z))

theorem Lgq_eq {Om z : ℝ} (hz : -1 < z) :
    Lgq Om z = Lq Om z + z * (-(1 + 3 / 2 * Lth Om z) * Lv z * Lq Om z) := by
  have : 1 - Lv z = z * Lv z := by unfold Lv; have : 1 + z ≠ 0 := by linarith
                                   field_simp; ring
  unfold Lgq; rw [this]; ring

theorem Lgq_deriv {Om z : ℝ} (hO : PhysicalOm Om) (hz : -1 < z) :
    HasDerivAt (Lgq Om) (Lq Om z * (Lv z *
      (-2 * (1 + 3 / 2 * Lth Om z) + (1 - Lv z) * (2 + 27 / 4 * Lth Om z ^ 2)))) z := by
  have h := (Lq_deriv hO hz).mul
    ((((Lv_deriv hz).const_sub 1).mul (((Lth_deriv hO hz).const_mul (3 / 2)).const_add 1)).const_sub 1)
  refine h.congr_deriv ?_
  simp
  ring

theorem Lgq_deriv2 {Om z : ℝ} (hO : PhysicalOm Om) (hz : -1 < z) :
    HasDerivAt (fun z => Lq Om z * (Lv z *
      (-2 * (1 + 3 / 2 * Lth Om z) + (1 - Lv z) * (2 + 27 / 4 * Lth Om z ^ 2))))
     (Lq Om z * Lv z ^ 2 * (6 + 81 / 4 * Lth Om z ^ 2
      + (1 - Lv z) * (-6 - 3 * Lth Om z + 81 / 4 * Lth Om z ^ 2 - 405 / 8 * Lth Om z ^ 3))) z := by
  have ht := Lth_deriv hO hz
  have h := (Lq_deriv hO hz).mul ((Lv_deriv hz).mul
    ((((ht.const_mul (3 / 2)).const_add 1).const_mul (-2)).add (((Lv_deriv hz).const_sub 1).mul
      (((ht.pow 2).const_mul (27 / 4)).const_add 2))))
  refine h.congr_deriv ?_
  simp
  ring

/-! ### convexity -/

theorem mem_interior_Ici {x : ℝ} (h : x ∈ interior (Ici (0 : ℝ))) : 0 < x := by
  rwa [interior_Ici] at h

/-- convexity on `[0,∞)` from a second derivative given on `(-1,∞)` -/
theorem convexOn_Ici {f f' f'' : ℝ → ℝ} (h1 : ∀ x, -1 < x → HasDerivAt f (f' x) x)
    (h2 : ∀ x, -1 < x → HasDerivAt f' (f'' x) x) (h3 : ∀ x, 0 ≤ x → 0 ≤ f'' x) : ConvexOn ℝ (Ici 0) f := by
  apply convexOn_of_hasDerivWithinAt2_nonneg (convex_Ici 0) (f' := f') (f'' := f'')
  · intro x hx; exact (h1 x (by simp at hx; linarith)).continuousAt.continuousWithinAt
  · intro x hx; exact (h1 x (by have := mem_interior_Ici hx; linarith)).hasDerivWithinAt
  · intro x hx; exact (h2 x (by have := mem_interior_Ici hx; linarith)).hasDerivWithinAt
  · intro x hx; exact h3 x (mem_interior_Ici hx).le

theorem contOn_Ici {f f' : ℝ → ℝ} (h1 : ∀ x, -1 < x → HasDerivAt f (f' x) x) : ContinuousOn f (Ici 0) :=
  fun x hx => (h1 x (by simp at hx; linarith)).continuousAt.continuousWithinAt

theorem Lq_convex {Om : ℝ} (hO : PhysicalOm Om) : ConvexOn ℝ (Ici 0) (Lq Om) :=
  convexOn_Ici (fun _ hx => Lq_deriv hO hx) (fun _ hx => Lq_deriv2 hO hx) (fun x hx => by
    have := Lq_pos hO (by linarith : -1 < x)
    positivity)

/-- comparison function `-log(1+z)` -/
theorem neglog_deriv {z : ℝ} (hz : -1 < z) (k : ℝ) :
    HasDerivAt (fun z => -k * Real.log (1 + z)) (-k * Lv z) z := by
  have h := (((hasDerivAt_id z).const_add 1).log (by simp; linarith)).const_mul (-k)
  refine h.congr_deriv ?_
  simp [Lv]

theorem neglog_deriv2 {z : ℝ} (hz : -1 < z) (k : ℝ) :
    HasDerivAt (fun z => -k * Lv z) (k * Lv z ^ 2) z := by
  have h := (Lv_deriv hz).const_mul (-k)
  refine h.congr_deriv ?_
  ring

theorem mulv_deriv {z : ℝ} (hz : -1 < z) (k : ℝ) :
    HasDerivAt (fun z => k * Lv z) (-k * Lv z ^ 2) z := by
  have h := (Lv_deriv hz).const_mul k
  refine h.congr_deriv ?_
  ring

theorem mulv_deriv2 {z : ℝ} (hz : -1 < z) (k : ℝ) :
    HasDerivAt (fun z => -k * Lv z ^ 2) (2 * k * Lv z ^ 3) z := by
  have h := ((Lv_deriv hz).pow 2).const_mul (-k)
  refine h.congr_deriv ?_
  simp; ring

/-- polynomial bounds used for the comparison functions -/
theorem poly_f {t : ℝ} (h0 : 0 ≤ t) (h1 : t ≤ 1) : |27 / 4 * t ^ 2 - 3 * t| ≤ 15 / 4 := by
  rw [abs_le]; constructor <;> nlinarith [sq_nonneg (t - 2 / 9)]

theorem poly_g {t v : ℝ} (h0 : 0 ≤ t) (h1 : t ≤ 1) (v0 : 0 ≤ v) (v1 : v ≤ 1) :
    -(15 / 8) ≤ 3 * (27 / 4 * t ^ 2 - 3 * t)
      + (1 - v) * (-(405 / 8) * t ^ 3 + 81 / 2 * t ^ 2 - 3 * t) := by
  have a0 : -1 ≤ 3 * (27 / 4 * t ^ 2 - 3 * t) := by nlinarith [sq_nonneg (t - 2 / 9)]
  have a1 : -(15 / 8) ≤ 3 * (27 / 4 * t ^ 2 - 3 * t) + (-(405 / 8) * t ^ 3 + 81 / 2 * t ^ 2 - 3 * t) := by
    have h : 0 ≤ (1 - t) * (405 / 8 * t ^ 2 - 81 / 8 * t + 15 / 8) := by
      apply mul_nonneg (by linarith)
      nlinarith [sq_nonneg (t - 1 / 10)]
    nlinarith [h]
  nlinarith

theorem poly_q {t v : ℝ} (h0 : 0 ≤ t) (h1 : t ≤ 1) (v0 : 0 ≤ v) (v1 : v ≤ 1) :
    -(105 / 8) ≤ 6 + 81 / 4 * t ^ 2
      + (1 - v) * (-6 - 3 * t + 81 / 4 * t ^ 2 - 405 / 8 * t ^ 3) := by
  have a0 : -(105 / 8) ≤ 6 + 81 / 4 * t ^ 2 := by nlinarith [sq_nonneg t]
  have a1 : -(105 / 8) ≤ 6 + 81 / 4 * t ^ 2 + (-6 - 3 * t + 81 / 4 * t ^ 2 - 405 / 8 * t ^ 3) := by
    have h : 0 ≤ (1 - t) * (405 / 8 * t ^ 2 + 81 / 8 * t + 105 / 8) := by
      apply mul_nonneg (by linarith)
      positivity
    nlinarith [h]
  nlinarith

end Dsps.Lemmas
