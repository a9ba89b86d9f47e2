import Verif.Lemmas.Age
import Mathlib.Analysis.SpecialFunctions.Arsinh
import Mathlib.Analysis.Complex.ExponentialBounds

/-! Closed form of the flat-LCDM time integral. -/
namespace Dsps.Lemmas
open Jnp Dsps.Utils Dsps.FlatWcdm Spec Set
open scoped BigOperators

/-- the argument of `arsinh` in the closed form -/
noncomputable def Ls (Om z : ℝ) : ℝ := Real.sqrt ((1 - Om) / Om) * (1 + z) ^ (-(3 / 2) : ℝ)

theorem Ls_deriv {Om z : ℝ} (hz : -1 < z) : HasDerivAt (Ls Om) (-(3 / 2) * Ls Om z / (1 + z)) z := by
  have h1 : 0 < 1 + z := by linarith
  have h := (((hasDerivAt_id z).const_add 1).rpow_const (p := -(3 / 2)) (Or.inl h1.ne')).const_mul
    (Real.sqrt ((1 - Om) / Om))
  refine h.congr_deriv ?_
  unfold Ls
  simp only [id]
  rw [Real.rpow_sub_one h1.ne']
  ring

theorem Ls_sq {Om z : ℝ} (h0 : 0 < Om) (h1 : Om < 1) (hz : -1 < z) :
    Ls Om z ^ 2 = (1 - Om) / (Om * (1 + z) ^ 3) := by
  have hp : 0 < 1 + z := by linarith
  unfold Ls
  rw [mul_pow, Real.sq_sqrt (div_nonneg (by linarith) h0.le), ← Real.rpow_natCast, ← Real.rpow_mul hp.le]
  have : (-(3 / 2) : ℝ) * ((2 : ℕ) : ℝ) = -((3 : ℕ) : ℝ) := by norm_num
  rw [this, Real.rpow_neg hp.le, Real.rpow_natCast]
  field_simp

theorem Ls_pos {Om z : ℝ} (h0 : 0 < Om) (h1 : Om < 1) (hz : -1 < z) : 0 < Ls Om z :=
  mul_pos (Real.sqrt_pos.2 (div_pos (by linarith) h0)) (Real.rpow_pos_of_pos (by linarith) _)

theorem closed_deriv {Om z : ℝ} (h0 : 0 < Om) (h1 : Om < 1) (hz : -1 < z) :
    HasDerivAt (fun z => -(2 / 3) / Real.sqrt (1 - Om) * Real.arsinh (Ls Om z)) (Lq Om z) z := by
  have hp : 0 < 1 + z := by linarith
  have hO : PhysicalOm Om := ⟨h0.le, h1.le⟩
  have hs := Ls_pos h0 h1 hz
  have h := ((Real.hasDerivAt_arsinh (Ls Om z)).comp z (Ls_deriv hz)).const_mul (-(2 / 3) / Real.sqrt (1 - Om))
  refine h.congr_deriv ?_
  have hq : 0 < Real.sqrt (1 - Om) := Real.sqrt_pos.2 (by linarith)
  have key : Ls Om z * Real.sqrt (LP Om z) = Real.sqrt (1 - Om) * Real.sqrt (1 + Ls Om z ^ 2) := by
    rw [← Real.sqrt_mul (by linarith), ← Real.sqrt_sq hs.le, ← Real.sqrt_mul (sq_nonneg _), Real.sqrt_sq hs.le,
      Ls_sq h0 h1 hz]
    congr 1
    unfold LP
    field_simp
  have hL := Real.sqrt_pos.2 (LP_pos hO hz)
  have h2 : 0 < Real.sqrt (1 + Ls Om z ^ 2) := Real.sqrt_pos.2 (by positivity)
  unfold Lq
  field_simp
  linarith

theorem lcdm_integral {Om a b : ℝ} (h0 : 0 < Om) (h1 : Om < 1) (ha : 0 ≤ a) (hb : 0 ≤ b) :
    ∫ t in a..b, Lq Om t = 2 / 3 / Real.sqrt (1 - Om) * (Real.arsinh (Ls Om a) - Real.arsinh (Ls Om b)) := by
  rw [intervalIntegral.integral_eq_sub_of_hasDerivAt (fun x hx => closed_deriv h0 h1 (by
    have h1 : min a b ≤ x := by have := hx.1; simpa using this
    have := le_min ha hb
    linarith)) (Lq_int ⟨h0.le, h1.le⟩ ha hb)]
  ring

theorem Ls_zero (Om : ℝ) : Ls Om 0 = Real.sqrt ((1 - Om) / Om) := by unfold Ls; simp

theorem arsinh_le_self {x : ℝ} (hx : 0 ≤ x) : Real.arsinh x ≤ x := by
  have := Real.self_le_sinh_iff.2 hx
  calc Real.arsinh x ≤ Real.arsinh (Real.sinh x) := Real.arsinh_le_arsinh.2 this
    _ = x := Real.arsinh_sinh x

theorem tail_le {Om : ℝ} (h0 : 0 < Om) (h1 : Om < 1) :
    2 / 3 / Real.sqrt (1 - Om) * Real.arsinh (Ls Om 999) ≤ 2.2e-5 / Real.sqrt Om := by
  have hq : 0 < Real.sqrt (1 - Om) := Real.sqrt_pos.2 (by linarith)
  have ho : 0 < Real.sqrt Om := Real.sqrt_pos.2 h0
  have hs := Ls_pos h0 h1 (by norm_num : (-1 : ℝ) < 999)
  have hb : Ls Om 999 ≤ Real.sqrt (1 - Om) / Real.sqrt Om / 31622 := by
    refine (pow_le_pow_iff_left₀ hs.le (by positivity) (two_ne_zero)).1 ?_
    rw [Ls_sq h0 h1 (by norm_num), div_pow, div_pow, Real.sq_sqrt (by linarith), Real.sq_sqrt h0.le, ← div_div]
    have : 0 ≤ (1 - Om) / Om := div_nonneg (by linarith) h0.le
    apply div_le_div_of_nonneg_left this <;> norm_num
  calc _ ≤ 2 / 3 / Real.sqrt (1 - Om) * (Real.sqrt (1 - Om) / Real.sqrt Om / 31622) :=
        mul_le_mul_of_nonneg_left ((arsinh_le_self hs.le).trans hb) (by positivity)
    _ = (2 / 3 / 31622) / Real.sqrt Om := by field_simp
    _ ≤ _ := by gcongr; norm_num

/-- rational upper bound on `arsinh` through powers of `e` -/
theorem arsinh_le {x y : ℝ} {p q : ℕ} (hq : q ≠ 0) (h0 : 0 ≤ x + y) (hy : 0 ≤ y) (h : 1 + x ^ 2 ≤ y ^ 2)
    (he : (x + y) ^ q ≤ 2.7182818283 ^ p) : Real.arsinh x ≤ p / q := by
  have hs : Real.sqrt (1 + x ^ 2) ≤ y := Real.sqrt_le_iff.2 ⟨hy, h⟩
  rw [← Real.exp_le_exp, Real.exp_arsinh]
  have h1 : (x + y) ^ q ≤ Real.exp (p / q) ^ q := by
    rw [← Real.exp_nat_mul, mul_div_cancel₀ _ (by exact_mod_cast hq), ← mul_one (p : ℝ), Real.exp_nat_mul]
    exact he.trans (pow_le_pow_left₀ (by norm_num) Real.exp_one_gt_d9.le _)
  have h2 := (pow_le_pow_iff_left₀ h0 (Real.exp_pos _).le hq).1 h1
  linarith

/-- rational lower bound on `arsinh` through powers of `e` -/
theorem le_arsinh {x y : ℝ} {p q : ℕ} (hq : q ≠ 0) (h0 : 0 ≤ x + y) (h : y ^ 2 ≤ 1 + x ^ 2)
    (he : 2.7182818286 ^ p ≤ (x + y) ^ q) : p / q ≤ Real.arsinh x := by
  have hs : y ≤ Real.sqrt (1 + x ^ 2) := Real.le_sqrt_of_sq_le h
  rw [← Real.exp_le_exp, Real.exp_arsinh]
  have h1 : Real.exp (p / q) ^ q ≤ (x + y) ^ q := by
    rw [← Real.exp_nat_mul, mul_div_cancel₀ _ (by exact_mod_cast hq), ← mul_one (p : ℝ), Real.exp_nat_mul]
    exact (pow_le_pow_left₀ (Real.exp_pos _).le Real.exp_one_lt_d9.le _).trans he
  have h2 := (pow_le_pow_iff_left₀ (Real.exp_pos _).le h0 hq).1 h1
  linarith

end Dsps.Lemmas
