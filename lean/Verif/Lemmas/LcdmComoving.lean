import Verif.Lemmas.LcdmHigh
import Verif.Lemmas.LcdmBoxCheck
import Mathlib.Analysis.SpecialFunctions.Pow.Real

/-! The comoving distance in flat LCDM increases with redshift, without any upper limit on the redshift. -/
namespace Dsps.Lemmas
open Jnp Dsps.Utils Dsps.FlatWcdm Spec Set Box
open scoped BigOperators

/-! ### scaling -/

theorem LP_cube (s x : ℝ) : LP (s ^ 3) x = EP s (s * x) := by unfold LP EP; ring

theorem Lf_cube (s x : ℝ) : Lf (s ^ 3) x = X s (s * x) := by unfold Lf X; rw [LP_cube]

theorem Lg_cube {s x : ℝ} (hs : 0 ≤ s) (hx : 0 ≤ x) : Lg (s ^ 3) x = hh s (s * x) := by
  have hp := EP_pos hs (mul_nonneg hs hx)
  have h1 : X s (s * x) ^ 2 = 1 / EP s (s * x) := by
    unfold X; rw [div_pow, Real.sq_sqrt hp.le, one_pow]
  have h2 : hh s (s * x) = X s (s * x) * (num s (s * x) * X s (s * x) ^ 2) := by unfold hh; ring
  rw [h2, h1]
  unfold Lg
  rw [Lf_cube]
  congr 1
  unfold Lth Lv
  rw [LP_cube]
  have hu : (1 : ℝ) + x ≠ 0 := by linarith
  have hp' := hp.ne'
  field_simp
  unfold EP num
  ring

/-! ### the tail: increasing and concave -/

theorem tail_v {s x : ℝ} (hs : 0 < s) (hx : 6 ≤ s * x) : Lv x * (6 + s) ≤ s := by
  have hx0 : 0 < x := by
    by_contra h
    push Not at h
    have := mul_nonpos_of_nonneg_of_nonpos hs.le h
    linarith
  unfold Lv
  rw [one_div, inv_mul_le_iff₀ (by linarith)]
  linarith

theorem tail_t {s x : ℝ} (hs : 0 < s) (hs1 : s ≤ 1) (hx : 6 ≤ s * x) :
    (1 - Lth (s ^ 3) x) * (36 * (6 + s)) ≤ 3 * (1 - s) ∧ 0 ≤ 1 - Lth (s ^ 3) x := by
  have hO : PhysicalOm (s ^ 3) := ⟨by positivity, pow_le_one₀ hs.le hs1⟩
  have hx0 : 0 < x := by
    by_contra h
    push Not at h
    have := mul_nonpos_of_nonneg_of_nonpos hs.le h
    linarith
  have hP := LP_pos hO (by linarith : -1 < x)
  have e : 1 - Lth (s ^ 3) x = (1 - s ^ 3) / LP (s ^ 3) x := by
    unfold Lth
    rw [eq_div_iff hP.ne', sub_mul, div_mul_cancel₀ _ hP.ne']
    unfold LP; ring
  have hs3 : s ^ 3 ≤ 1 := hO.2
  refine ⟨?_, by rw [e]; exact div_nonneg (by linarith) hP.le⟩
  rw [e, div_mul_eq_mul_div, div_le_iff₀ hP]
  have h1 : (6 + s) ^ 3 ≤ LP (s ^ 3) x := by
    have : 6 + s ≤ s * (1 + x) := by linarith
    have h2 : (6 + s) ^ 3 ≤ (s * (1 + x)) ^ 3 := pow_le_pow_left₀ (by linarith) this 3
    have h3 : (s * (1 + x)) ^ 3 = s ^ 3 * (1 + x) ^ 3 := by ring
    unfold LP; linarith
  have h2 : 36 * (6 + s) ≤ (6 + s) ^ 3 := by nlinarith [sq_nonneg s]
  have h3 : 1 - s ^ 3 ≤ 3 * (1 - s) := by nlinarith [mul_nonneg (sub_nonneg.2 hs1) (sub_nonneg.2 hs1), sq_nonneg s]
  have h4 : 0 ≤ 1 - s ^ 3 := by linarith
  calc (1 - s ^ 3) * (36 * (6 + s)) ≤ (1 - s ^ 3) * LP (s ^ 3) x := mul_le_mul_of_nonneg_left (h2.trans h1) h4
    _ ≤ 3 * (1 - s) * LP (s ^ 3) x := mul_le_mul_of_nonneg_right h3 hP.le

theorem tail_slope {s x : ℝ} (hs : 0 < s) (hs1 : s ≤ 1) (hx : 6 ≤ s * x) :
    0 ≤ Lf (s ^ 3) x * (Lv x *
      (-3 * Lth (s ^ 3) x + (1 - Lv x) * (27 / 4 * Lth (s ^ 3) x ^ 2 - 3 * Lth (s ^ 3) x))) := by
  have hO : PhysicalOm (s ^ 3) := ⟨by positivity, pow_le_one₀ hs.le hs1⟩
  have hx0 : 0 < x := by
    by_contra h
    push Not at h
    have := mul_nonpos_of_nonneg_of_nonpos hs.le h
    linarith
  have hx' : -1 < x := by linarith
  have h1 := tail_v hs hx
  obtain ⟨h2, h3⟩ := tail_t hs hs1 hx
  have hv := Lv_pos hx'
  have ht := Lth_nonneg hO hx'
  have e : -3 * Lth (s ^ 3) x + (1 - Lv x) * (27 / 4 * Lth (s ^ 3) x ^ 2 - 3 * Lth (s ^ 3) x)
      = Lth (s ^ 3) x * (3 / 4 - 15 / 4 * Lv x - 27 / 4 * (1 - Lth (s ^ 3) x) * (1 - Lv x)) := by ring
  rw [e]
  refine mul_nonneg (Lf_pos hO hx').le (mul_nonneg hv.le (mul_nonneg ht ?_))
  have hv7 : Lv x ≤ 1 / 7 := by nlinarith
  have ht72 : 1 - Lth (s ^ 3) x ≤ 1 / 72 := by nlinarith
  nlinarith

theorem tail_curv {s x : ℝ} (hs : 0 < s) (hs1 : s ≤ 1) (hx : 6 ≤ s * x) :
    Lf (s ^ 3) x * Lv x ^ 2 * (3 * (27 / 4 * Lth (s ^ 3) x ^ 2 - 3 * Lth (s ^ 3) x)
      + (1 - Lv x) * (-(405 / 8) * Lth (s ^ 3) x ^ 3 + 81 / 2 * Lth (s ^ 3) x ^ 2 - 3 * Lth (s ^ 3) x)) ≤ 0 := by
  have hO : PhysicalOm (s ^ 3) := ⟨by positivity, pow_le_one₀ hs.le hs1⟩
  have hx0 : 0 < x := by
    by_contra h
    push Not at h
    have := mul_nonpos_of_nonneg_of_nonpos hs.le h
    linarith
  have hx' : -1 < x := by linarith
  have h1 := tail_v hs hx
  obtain ⟨h2, h3⟩ := tail_t hs hs1 hx
  have hv := Lv_pos hx'
  have ht := Lth_nonneg hO hx'
  have hv1 := Lv_le_one hx0.le
  obtain ⟨τ, hτ⟩ : ∃ τ, Lth (s ^ 3) x = 1 - τ := ⟨1 - Lth (s ^ 3) x, by ring⟩
  rw [hτ] at h2 h3 ht ⊢
  generalize Lv x = v at *
  have e : 3 * (27 / 4 * (1 - τ) ^ 2 - 3 * (1 - τ))
      + (1 - v) * (-(405 / 8) * (1 - τ) ^ 3 + 81 / 2 * (1 - τ) ^ 2 - 3 * (1 - τ))
      = (1 - τ) * (-(15 / 8) + 105 / 8 * v + τ * (81 / 2 - 243 / 4 * v) - 405 / 8 * τ ^ 2 * (1 - v)) := by ring
  rw [e]
  have hτ0 : 0 ≤ τ := by linarith
  refine mul_nonpos_of_nonneg_of_nonpos (mul_nonneg (Lf_pos hO hx').le (sq_nonneg v))
    (mul_nonpos_of_nonneg_of_nonpos ht ?_)
  have a1 : 0 ≤ τ * v := mul_nonneg hτ0 hv.le
  have a2 : 0 ≤ τ ^ 2 * (1 - v) := mul_nonneg (sq_nonneg _) (by linarith)
  have a3 : -(15 / 8) + 105 / 8 * v + 81 / 2 * τ ≤ 0 := by
    have h6 : 0 < 6 + s := by linarith
    have : (-(15 / 8) + 105 / 8 * v + 81 / 2 * τ) * (6 + s) ≤ 0 := by nlinarith
    by_contra hc
    push Not at hc
    have := mul_pos hc h6
    linarith
  linarith

/-- `d/dx (x/E)` is concave on the tail. -/
theorem tail_convex {s : ℝ} (hs : 0 < s) (hs1 : s ≤ 1) : ConvexOn ℝ (Ici (6 / s)) (fun x => -Lg (s ^ 3) x) := by
  have hO : PhysicalOm (s ^ 3) := ⟨by positivity, pow_le_one₀ hs.le hs1⟩
  have h6 : 0 < 6 / s := by positivity
  have key : ∀ x, 6 / s ≤ x → 6 ≤ s * x := fun x hx => by
    rw [div_le_iff₀ hs] at hx; linarith
  apply convexOn_of_hasDerivWithinAt2_nonneg (convex_Ici _)
  · intro x hx
    have hx' : -1 < x := by have : 6 / s ≤ x := hx; linarith
    exact (Lg_deriv hO hx').neg.continuousAt.continuousWithinAt
  · intro x hx
    rw [interior_Ici, mem_Ioi] at hx
    exact (Lg_deriv hO (by linarith)).neg.hasDerivWithinAt
  · intro x hx
    rw [interior_Ici, mem_Ioi] at hx
    exact (Lg_deriv2 hO (by linarith)).neg.hasDerivWithinAt
  · intro x hx
    rw [interior_Ici, mem_Ioi] at hx
    have := tail_curv hs hs1 (key x hx.le)
    linarith

theorem tail_mono {s : ℝ} (hs : 0 < s) (hs1 : s ≤ 1) : MonotoneOn (Lg (s ^ 3)) (Ici (6 / s)) := by
  have hO : PhysicalOm (s ^ 3) := ⟨by positivity, pow_le_one₀ hs.le hs1⟩
  have h6 : 0 < 6 / s := by positivity
  have key : ∀ x, 6 / s ≤ x → 6 ≤ s * x := fun x hx => by
    rw [div_le_iff₀ hs] at hx; linarith
  apply monotoneOn_of_deriv_nonneg (convex_Ici _)
  · intro x hx
    have hx' : -1 < x := by have : 6 / s ≤ x := hx; linarith
    exact (Lg_deriv hO hx').continuousAt.continuousWithinAt
  · intro x hx
    rw [interior_Ici, mem_Ioi] at hx
    exact (Lg_deriv hO (by linarith)).differentiableAt.differentiableWithinAt
  · intro x hx
    rw [interior_Ici, mem_Ioi] at hx
    rw [(Lg_deriv hO (by linarith)).deriv]
    exact tail_slope hs hs1 (key x hx.le)

theorem Lxf_deriv {Om x : ℝ} (hO : PhysicalOm Om) (hx : -1 < x) :
    HasDerivAt (fun x => x * Lf Om x) (Lg Om x) x := by
  have := (hasDerivAt_id x).mul (Lf_deriv hO hx)
  refine this.congr_deriv ?_
  rw [Lg_eq hx]; simp

theorem integral_Lg {Om a b : ℝ} (hO : PhysicalOm Om) (ha : 0 ≤ a) (hab : a ≤ b) :
    ∫ x in a..b, Lg Om x = b * Lf Om b - a * Lf Om a ∧ IntervalIntegrable (Lg Om) MeasureTheory.volume a b := by
  have hi : IntervalIntegrable (Lg Om) MeasureTheory.volume a b := by
    apply ContinuousOn.intervalIntegrable
    rw [uIcc_of_le hab]
    exact (contOn_Ici fun x hx => Lg_deriv hO hx).mono fun x hx => ha.trans hx.1
  refine ⟨?_, hi⟩
  apply intervalIntegral.integral_eq_sub_of_hasDerivAt _ hi
  intro x hx
  rw [uIcc_of_le hab] at hx
  exact Lxf_deriv hO (by linarith [hx.1])

/-- midpoint rule on the tail -/
theorem tail_mid {s : ℝ} (hs : 0 < s) (hs1 : s ≤ 1) {m r : ℝ} (hr : 0 ≤ r) (hm : 6 / s ≤ m - r) :
    (m + r) * Lf (s ^ 3) (m + r) - (m - r) * Lf (s ^ 3) (m - r) ≤ 2 * r * Lg (s ^ 3) m := by
  have hO : PhysicalOm (s ^ 3) := ⟨by positivity, pow_le_one₀ hs.le hs1⟩
  have h6 : 0 < 6 / s := by positivity
  obtain ⟨h1, hi⟩ := integral_Lg hO (by linarith : 0 ≤ m - r) (by linarith : m - r ≤ m + r)
  rw [← h1]
  have hd := (Lg_deriv hO (by linarith : -1 < m)).neg
  generalize Lf (s ^ 3) m * (Lv m * (-3 * Lth (s ^ 3) m + (1 - Lv m) * (27 / 4 * Lth (s ^ 3) m ^ 2 - 3 * Lth (s ^ 3) m)))
    = d at hd
  have e : 2 * r * Lg (s ^ 3) m = ∫ x in (m - r)..(m + r), ((Lg (s ^ 3) m - d * r) + d * (x - (m - r))) := by
    rw [affine_integral]; ring
  rw [e]
  apply intervalIntegral.integral_mono_on (by linarith) hi
  · apply Continuous.intervalIntegrable; fun_prop
  · intro x hx
    have := tangent_le (tail_convex hs hs1) (a := m) (x := x) (by rw [mem_Ici]; linarith)
      (by rw [mem_Ici]; linarith [hx.1]) hd
    linarith

theorem tail_last {s : ℝ} (hs : 0 < s) (hs1 : s ≤ 1) {a b : ℝ} (ha : 6 / s ≤ a) (hab : a ≤ b) :
    b * Lf (s ^ 3) b - a * Lf (s ^ 3) a ≤ (b - a) * Lg (s ^ 3) b := by
  have hO : PhysicalOm (s ^ 3) := ⟨by positivity, pow_le_one₀ hs.le hs1⟩
  have h6 : 0 < 6 / s := by positivity
  obtain ⟨h1, hi⟩ := integral_Lg hO (by linarith : 0 ≤ a) hab
  rw [← h1]
  have e : (b - a) * Lg (s ^ 3) b = ∫ _ in a..b, Lg (s ^ 3) b := by
    rw [intervalIntegral.integral_const, smul_eq_mul]
  rw [e]
  apply intervalIntegral.integral_mono_on hab hi
  · exact intervalIntegrable_const
  · intro x hx
    exact tail_mono hs hs1 (ha.trans hx.1) (ha.trans hab) hx.2

/-! ### the sum -/

theorem sum_half (a : ℕ → ℝ) (M : ℕ) :
    ∑ i ∈ Finset.range (M + 1), (a i + a (i + 1)) / 2 = a 0 / 2 + ∑ i ∈ Finset.range M, a (i + 1) + a (M + 1) / 2 := by
  induction M with
  | zero => simp; ring
  | succ M ih => rw [Finset.sum_range_succ, ih, Finset.sum_range_succ]; ring

theorem tail_sum {s : ℝ} (hs : 0 < s) (hs1 : s ≤ 1) {δ : ℝ} (hδ : 0 < δ) {j : ℕ}
    (hj : 6 ≤ s * (δ * ((j : ℝ) + 1 / 2))) (m : ℕ) :
    ((j : ℝ) + m + 1 / 2) * Lf (s ^ 3) (δ * ((j : ℝ) + m + 1 / 2)) - ((j : ℝ) + 1 / 2) * Lf (s ^ 3) (δ * ((j : ℝ) + 1 / 2))
      ≤ ∑ i ∈ Finset.range m, Lg (s ^ 3) (δ * ((j + i : ℕ) + 1)) := by
  induction m with
  | zero => simp
  | succ m ih =>
    rw [Finset.sum_range_succ]
    have hc : 6 / s ≤ δ * ((j : ℝ) + 1 / 2) := by rw [div_le_iff₀ hs]; linarith
    have h := tail_mid hs hs1 (m := δ * (((j + m : ℕ) : ℝ) + 1)) (r := δ / 2) (by positivity) (by
      refine hc.trans ?_
      push_cast
      have : 0 ≤ δ * (m : ℝ) := by positivity
      linarith)
    have e1 : δ * (((j + m : ℕ) : ℝ) + 1) + δ / 2 = δ * ((j : ℝ) + (m + 1 : ℕ) + 1 / 2) := by push_cast; ring
    have e2 : δ * (((j + m : ℕ) : ℝ) + 1) - δ / 2 = δ * ((j : ℝ) + m + 1 / 2) := by push_cast; ring
    rw [e1, e2] at h
    have h' : ((j : ℝ) + (m + 1 : ℕ) + 1 / 2) * Lf (s ^ 3) (δ * ((j : ℝ) + (m + 1 : ℕ) + 1 / 2))
        - ((j : ℝ) + m + 1 / 2) * Lf (s ^ 3) (δ * ((j : ℝ) + m + 1 / 2)) ≤ Lg (s ^ 3) (δ * (((j + m : ℕ) : ℝ) + 1)) := by
      rw [← mul_le_mul_iff_right₀ hδ]
      linarith
    linarith

/-- Trapezoid sum bounded below by `j` exact terms and the two ends of the tail. -/
theorem trap_ge_bound {s : ℝ} (hs : 0 < s) (hs1 : s ≤ 1) {δ : ℝ} (hδ : 0 < δ) {j : ℕ} (hj200 : j ≤ 200)
    (hj : 6 ≤ ((j : ℝ) + 1 / 2) * (s * δ)) :
    bound j s (s * δ) ≤ ∑ i ∈ Finset.range (254 + 1), (Lg (s ^ 3) (δ * i) + Lg (s ^ 3) (δ * (i + 1))) / 2 := by
  have hj' : 6 ≤ s * (δ * ((j : ℝ) + 1 / 2)) := by linarith
  have e := sum_half (fun i => Lg (s ^ 3) (δ * i)) 254
  simp only [Nat.cast_add, Nat.cast_one] at e
  rw [e]
  obtain ⟨m, hm⟩ : ∃ m, 254 = j + m := ⟨254 - j, by omega⟩
  have h0 : Lg (s ^ 3) (δ * ((0 : ℕ) : ℝ)) = 1 := by simp [Lg, Lv, Lf, LP]
  have hsplit : ∑ i ∈ Finset.range 254, Lg (s ^ 3) (δ * ((i : ℝ) + 1))
      = ∑ i ∈ Finset.range j, Lg (s ^ 3) (δ * ((i : ℝ) + 1))
        + ∑ i ∈ Finset.range m, Lg (s ^ 3) (δ * (((j + i : ℕ) : ℝ) + 1)) := by
    rw [hm, Finset.sum_range_add]
  have ht := tail_sum hs hs1 hδ hj' m
  have hm' : (j : ℝ) + m = 254 := by exact_mod_cast hm.symm
  rw [hm'] at ht
  have hc : 6 / s ≤ δ * ((j : ℝ) + 1 / 2) := by rw [div_le_iff₀ hs]; linarith
  have hjr : (j : ℝ) ≤ 200 := by exact_mod_cast hj200
  have hl := tail_last hs hs1 (a := δ * (254 + 1 / 2)) (b := δ * 255) (hc.trans (by gcongr; linarith))
    (by gcongr; norm_num)
  have hl' : 255 * Lf (s ^ 3) (δ * 255) - (254 + 1 / 2) * Lf (s ^ 3) (δ * (254 + 1 / 2)) ≤ Lg (s ^ 3) (δ * 255) / 2 := by
    rw [← mul_le_mul_iff_right₀ hδ]
    linarith
  rw [hsplit, h0]
  have e255 : δ * (((254 : ℕ) : ℝ) + 1) = δ * 255 := by norm_num
  rw [e255]
  unfold bound
  have e1 : ∑ i ∈ Finset.range j, hh s (((i + 1 : ℕ) : ℝ) * (s * δ))
      = ∑ i ∈ Finset.range j, Lg (s ^ 3) (δ * ((i : ℝ) + 1)) := by
    apply Finset.sum_congr rfl
    intro i _
    rw [Lg_cube hs.le (by positivity)]
    congr 1; push_cast; ring
  have e2 : X s (((j : ℝ) + 1 / 2) * (s * δ)) = Lf (s ^ 3) (δ * ((j : ℝ) + 1 / 2)) := by
    rw [Lf_cube]; congr 1; ring
  have e3 : X s (255 * (s * δ)) = Lf (s ^ 3) (δ * 255) := by rw [Lf_cube]; congr 1; ring
  rw [e1, e2, e3]
  linarith

/-! ### short tables -/

theorem logs_deriv {s : ℝ} (hs : 0 ≤ s) (k : ℝ) {x : ℝ} (hx : 0 ≤ x) :
    HasDerivAt (fun x => -k * Real.log (1 + s * x)) (-k * (s / (1 + s * x))) x := by
  have : 1 + s * x ≠ 0 := by positivity
  have h := ((((hasDerivAt_id x).const_mul s).const_add 1).log (by simpa using this)).const_mul (-k)
  refine h.congr_deriv ?_
  simp

theorem logs_deriv2 {s : ℝ} (hs : 0 ≤ s) (k : ℝ) {x : ℝ} (hx : 0 ≤ x) :
    HasDerivAt (fun x => -k * (s / (1 + s * x))) (k * (s / (1 + s * x)) ^ 2) x := by
  have : 1 + s * x ≠ 0 := by positivity
  have h := ((((((hasDerivAt_id x).const_mul s).const_add 1).inv (by simpa using this)).const_mul s)).const_mul (-k)
  have e : (fun x => -k * (s / (1 + s * x))) = fun x => -k * (s * (1 + s * x)⁻¹) := by funext x; rw [div_eq_mul_inv]
  rw [e]
  refine h.congr_deriv ?_
  simp
  field_simp

theorem convexOn_Ici0 {f f' f'' : ℝ → ℝ} (h1 : ∀ x, 0 ≤ x → HasDerivAt f (f' x) x)
    (h2 : ∀ x, 0 ≤ x → HasDerivAt f' (f'' x) x) (h3 : ∀ x, 0 ≤ x → 0 ≤ f'' x) : ConvexOn ℝ (Ici 0) f := by
  apply convexOn_of_hasDerivWithinAt2_nonneg (convex_Ici 0) (f' := f') (f'' := f'')
  · intro x hx; exact (h1 x hx).continuousAt.continuousWithinAt
  · intro x hx; exact (h1 x (mem_interior_Ici hx).le).hasDerivWithinAt
  · intro x hx; exact (h2 x (mem_interior_Ici hx).le).hasDerivWithinAt
  · intro x hx; exact h3 x (mem_interior_Ici hx).le

theorem qX_sq {s q : ℝ} (hs : 0 ≤ s) (hq : 0 ≤ q) : (1 + q) * X s q ≤ 3 / 2 ∧ ((1 + q) * X s q) ^ 2 ≤ 11 / 5 := by
  have hp := EP_pos hs hq
  have h1 : X s q ^ 2 = 1 / EP s q := by unfold X; rw [div_pow, Real.sq_sqrt hp.le, one_pow]
  have h2 : ((1 + q) * X s q) ^ 2 ≤ 11 / 5 := by
    rw [mul_pow, h1, mul_one_div, div_le_iff₀ hp]
    have : 1 + q ^ 3 ≤ EP s q := by
      unfold EP
      have : 0 ≤ 3 * s ^ 2 * q + 3 * s * q ^ 2 := by positivity
      linarith
    have h3 : (1 + q) ^ 2 ≤ 11 / 5 * (1 + q ^ 3) := by
      have : 0 ≤ (1 + q) * (11 / 5 * (1 - q + q ^ 2) - (1 + q)) :=
        mul_nonneg (by linarith) (by nlinarith [sq_nonneg (q - 8 / 11)])
      nlinarith
    linarith
  refine ⟨?_, h2⟩
  have := X_pos hs hq
  apply le_of_sq_le_sq _ (by norm_num)
  linarith

theorem curv_lower {s x : ℝ} (hs : 0 ≤ s) (hs1 : s ≤ 1) (hx : 0 ≤ x) :
    0 ≤ Lf (s ^ 3) x * Lv x ^ 2 * (3 * (27 / 4 * Lth (s ^ 3) x ^ 2 - 3 * Lth (s ^ 3) x)
      + (1 - Lv x) * (-(405 / 8) * Lth (s ^ 3) x ^ 3 + 81 / 2 * Lth (s ^ 3) x ^ 2 - 3 * Lth (s ^ 3) x))
      + 40 * (s / (1 + s * x)) ^ 2 := by
  have hO : PhysicalOm (s ^ 3) := ⟨by positivity, pow_le_one₀ hs hs1⟩
  have hx' : -1 < x := by linarith
  have hP := LP_pos hO hx'
  have ht0 := Lth_nonneg hO hx'
  have ht1 := Lth_le_one hO hx'
  have hv0 := (Lv_pos hx').le
  have hv1 := Lv_le_one hx
  have hF := (Lf_pos hO hx').le
  have hsx : 0 ≤ s * x := mul_nonneg hs hx
  -- the bracket is at least `-12 t`
  have h1 : -12 * Lth (s ^ 3) x ≤ 3 * (27 / 4 * Lth (s ^ 3) x ^ 2 - 3 * Lth (s ^ 3) x)
      + (1 - Lv x) * (-(405 / 8) * Lth (s ^ 3) x ^ 3 + 81 / 2 * Lth (s ^ 3) x ^ 2 - 3 * Lth (s ^ 3) x) := by
    generalize Lth (s ^ 3) x = t at *
    generalize Lv x = v at *
    have e : 3 * (27 / 4 * t ^ 2 - 3 * t) + (1 - v) * (-(405 / 8) * t ^ 3 + 81 / 2 * t ^ 2 - 3 * t) - (-12 * t)
        = t * (81 / 4 * t + 3 + (1 - v) * (-(405 / 8) * t ^ 2 + 81 / 2 * t - 3)) := by ring
    have h2 : 0 ≤ 81 / 4 * t + 3 + (1 - v) * (-(405 / 8) * t ^ 2 + 81 / 2 * t - 3) := by
      have b1 : 0 ≤ t * (1 - t) := mul_nonneg ht0 (by linarith)
      have b2 : 0 ≤ 81 / 4 * t + 3 + (-(405 / 8) * t ^ 2 + 81 / 2 * t - 3) := by nlinarith
      have b3 : 0 ≤ 81 / 4 * t + 3 := by linarith
      have := mul_nonneg (sub_nonneg.2 hv1) b2
      have := mul_nonneg hv0 b3
      nlinarith
    have := mul_nonneg ht0 h2
    linarith
  -- `t f v² = s³ (1+x) X³`
  have h2 : Lth (s ^ 3) x * Lf (s ^ 3) x * Lv x ^ 2 = s ^ 2 * (s * (1 + x)) * X s (s * x) ^ 3 := by
    have hp := EP_pos hs hsx
    have hX : X s (s * x) ^ 2 = 1 / EP s (s * x) := by unfold X; rw [div_pow, Real.sq_sqrt hp.le, one_pow]
    have : X s (s * x) ^ 3 = X s (s * x) * X s (s * x) ^ 2 := by ring
    rw [this, hX, Lf_cube]
    unfold Lth Lv
    rw [LP_cube]
    have hu : (1 : ℝ) + x ≠ 0 := by linarith
    field_simp
  obtain ⟨h3, h4⟩ := qX_sq hs hsx
  have hX0 := (X_pos hs hsx).le
  have hq0 : 0 < 1 + s * x := by linarith
  have h5 : s * (1 + x) * X s (s * x) ^ 3 * (1 + s * x) ^ 2 ≤ 33 / 10 := by
    have : s * (1 + x) ≤ 1 + s * x := by linarith
    calc s * (1 + x) * X s (s * x) ^ 3 * (1 + s * x) ^ 2
        ≤ (1 + s * x) * X s (s * x) ^ 3 * (1 + s * x) ^ 2 := by gcongr
      _ = ((1 + s * x) * X s (s * x)) ^ 2 * ((1 + s * x) * X s (s * x)) := by ring
      _ ≤ 11 / 5 * (3 / 2) := by
          apply mul_le_mul h4 h3 (by positivity) (by norm_num)
      _ = _ := by norm_num
  have h6 : s * (1 + x) * X s (s * x) ^ 3 ≤ 33 / 10 / (1 + s * x) ^ 2 := by
    rw [le_div_iff₀ (by positivity)]; exact h5
  have h7 := mul_le_mul_of_nonneg_left h1 (mul_nonneg hF (sq_nonneg (Lv x)))
  have h8 : s ^ 2 * (s * (1 + x) * X s (s * x) ^ 3) ≤ s ^ 2 * (33 / 10 / (1 + s * x) ^ 2) :=
    mul_le_mul_of_nonneg_left h6 (sq_nonneg s)
  have e9 : (s / (1 + s * x)) ^ 2 = s ^ 2 * (1 / (1 + s * x) ^ 2) := by rw [div_pow]; ring
  have h10 : 0 ≤ s ^ 2 * (1 / (1 + s * x) ^ 2) := by positivity
  rw [e9]
  have e11 : s ^ 2 * (33 / 10 / (1 + s * x) ^ 2) = 33 / 10 * (s ^ 2 * (1 / (1 + s * x) ^ 2)) := by ring
  rw [e11] at h8
  nlinarith

theorem small_y {s δ : ℝ} (hs : 0 ≤ s) (hs1 : s ≤ 1) (hδ : 0 < δ) (hy : s * δ ≤ 1 / 8) :
    0 < ∑ i ∈ Finset.range (254 + 1), (Lg (s ^ 3) (δ * i) + Lg (s ^ 3) (δ * (i + 1))) / 2 := by
  have hO : PhysicalOm (s ^ 3) := ⟨by positivity, pow_le_one₀ hs hs1⟩
  have hcc : ConvexOn ℝ (Ici 0) (fun x => -40 * Real.log (1 + s * x)) :=
    convexOn_Ici0 (fun x hx => logs_deriv hs 40 hx) (fun x hx => logs_deriv2 hs 40 hx)
      (fun x hx => by positivity)
  have hFc : ConvexOn ℝ (Ici 0) (fun x => Lg (s ^ 3) x + -40 * Real.log (1 + s * x)) :=
    convexOn_Ici0 (fun x hx => (Lg_deriv hO (by linarith)).add (logs_deriv hs 40 hx))
      (fun x hx => (Lg_deriv2 hO (by linarith)).add (logs_deriv2 hs 40 hx))
      (fun x hx => curv_lower hs hs1 hx)
  have hc := cells_compare (g := Lg (s ^ 3)) (G := fun x => x * Lf (s ^ 3) x)
    (contOn_Ici fun x hx => Lg_deriv hO hx) (fun x hx => Lxf_deriv hO (by linarith)) hcc
    (fun t ht => logs_deriv hs 40 ht) hFc hδ 0 255
  simp only [Nat.zero_add, Nat.cast_zero, mul_zero, zero_mul, sub_zero, add_zero, div_one] at hc
  refine lt_of_lt_of_le ?_ hc
  have e1 : δ * ((255 : ℕ) : ℝ) * Lf (s ^ 3) (δ * ((255 : ℕ) : ℝ)) / δ = 255 * Lf (s ^ 3) (δ * 255) := by
    push_cast; field_simp
  rw [e1]
  have hy0 : 0 ≤ s * δ := mul_nonneg hs hδ.le
  have h2 : 0 ≤ s / (1 + s * (δ * ((255 : ℕ) : ℝ))) := by
    have : 0 ≤ s * (δ * ((255 : ℕ) : ℝ)) := by positivity
    positivity
  have h3 : δ / 4 * (-40 * (s / (1 + s * (δ * ((255 : ℕ) : ℝ)))) - -40 * s) ≤ 5 / 4 := by
    have := mul_nonneg hδ.le h2
    linarith
  have h4 : 1 / 200 ≤ Lf (s ^ 3) (δ * 255) := by
    rw [Lf_cube]
    have hq : 0 ≤ s * (δ * 255) := by positivity
    apply le_X hs hq
    have : EP s (s * (δ * 255)) ≤ EP 1 32 := EP_mono hs hq hs1 (by linarith)
    have e : EP 1 32 = 35937 := by unfold EP; norm_num
    rw [e] at this
    linarith
  linarith

/-- The trapezoid sum of `(x/E)'` is positive for every table. -/
theorem comoving_pos {s δ : ℝ} (hs : 0 ≤ s) (hs1 : s ≤ 1) (hδ : 0 < δ) :
    0 < ∑ i ∈ Finset.range (254 + 1), (Lg (s ^ 3) (δ * i) + Lg (s ^ 3) (δ * (i + 1))) / 2 := by
  rcases le_or_gt (s * δ) (1 / 8) with hy | hy
  · exact small_y hs hs1 hδ hy
  have hs0 : 0 < s := by
    rcases eq_or_lt_of_le hs with h | h
    · rw [← h] at hy; norm_num at hy
    · exact h
  rcases le_or_gt (s * δ) 12 with hy2 | hy2
  · obtain ⟨j, hj, hj6, hb⟩ := covered hs hs1 hy.le hy2
    exact lt_of_lt_of_le hb (trap_ge_bound hs0 hs1 hδ hj hj6)
  · refine lt_of_lt_of_le ?_ (trap_ge_bound hs0 hs1 hδ (j := 0) (by norm_num) (by norm_num; linarith))
    unfold bound
    have hX := X_pos hs (by linarith : 0 ≤ 255 * (s * δ))
    have h1 : X s ((((0 : ℕ) : ℝ) + 1 / 2) * (s * δ)) ≤ 1 := by
      apply X_le hs (by push_cast; linarith) (by norm_num)
      unfold EP
      have : 0 ≤ (((0 : ℕ) : ℝ) + 1 / 2) * (s * δ) := by push_cast; linarith
      have : 0 ≤ 3 * s ^ 2 * ((((0 : ℕ) : ℝ) + 1 / 2) * (s * δ)) + 3 * s * ((((0 : ℕ) : ℝ) + 1 / 2) * (s * δ)) ^ 2
        + ((((0 : ℕ) : ℝ) + 1 / 2) * (s * δ)) ^ 3 := by positivity
      linarith
    have e : ((0 : ℕ) : ℝ) + 1 / 2 = 1 / 2 := by norm_num
    rw [e] at h1 ⊢
    simp only [Finset.range_zero, Finset.sum_empty]
    linarith

/-- In flat LCDM the comoving distance table sum strictly increases with the redshift, without limit. -/
theorem Dtrap_strictMonoOn_Ici {Om : ℝ} (hO : PhysicalOm Om) :
    StrictMonoOn (fun z => Dtrap z Om (-1) 0) (Ici 0) := by
  obtain ⟨s, hs, hs1, rfl⟩ : ∃ s : ℝ, 0 ≤ s ∧ s ≤ 1 ∧ Om = s ^ 3 := by
    refine ⟨Om ^ ((1 : ℝ) / 3), Real.rpow_nonneg hO.1 _, Real.rpow_le_one hO.1 hO.2 (by norm_num), ?_⟩
    rw [← Real.rpow_natCast, ← Real.rpow_mul hO.1]; norm_num
  have h := unif_strictMono_of_pos (F := Lf (s ^ 3)) (g := Lg (s ^ 3)) (fun t ht => Lf_deriv hO ht)
    (fun t ht => Lg_eq ht) 254 le_rfl (fun δ hδ _ => comoving_pos hs hs1 hδ)
  exact h.congr fun z hz => (Dtrap_lcdm _ hz).symm

end Dsps.Lemmas
