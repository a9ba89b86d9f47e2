import Verif.Lemmas.LcdmQuad

/-! Monotonicity of the uniform-table quadratures in flat LCDM without any upper limit on the redshift: generic tools,
and the lookback time. -/
namespace Dsps.Lemmas
open Jnp Dsps.Utils Dsps.FlatWcdm Spec Set
open scoped BigOperators

/-- The trapezoid sum over the uniform table on `[0,z]` increases with `z` beyond `Z0` as soon as the trapezoid sum of
`(x F)'` over the same table is positive there. -/
theorem unif_strictMono_of_pos {F F' g : ℝ → ℝ} (hF : ∀ t, -1 < t → HasDerivAt F (F' t) t)
    (hg : ∀ t, -1 < t → g t = F t + t * F' t) (n : ℕ) {Z0 : ℝ} (hZ0 : 0 ≤ Z0)
    (hpos : ∀ δ, 0 < δ → Z0 < δ * ((n : ℝ) + 1) →
      0 < ∑ i ∈ Finset.range (n + 1), (g (δ * i) + g (δ * (i + 1))) / 2) :
    StrictMonoOn (fun z => trapz (linspace 0 z n) (fun i => F (linspace 0 z n i))) (Ici Z0) := by
  have hF0 : ∀ t, 0 ≤ t → HasDerivAt F (F' t) t := fun t ht => hF t (by linarith)
  have hN : (0 : ℝ) < (n : ℝ) + 1 := by positivity
  apply strictMonoOn_of_deriv_pos (convex_Ici Z0)
  · intro x hx
    exact (unif_hasDeriv hF0 (hZ0.trans hx) n).continuousAt.continuousWithinAt
  · intro z hz
    rw [interior_Ici, mem_Ioi] at hz
    have hz0 : 0 < z := by linarith
    rw [(unif_hasDeriv hF0 hz0.le n).deriv]
    have h1 := hpos (z / ((n : ℝ) + 1)) (by positivity) (by rw [div_mul_cancel₀ _ hN.ne']; exact hz)
    have e : ∀ j : Fin (n + 2), linspace 0 z n j = z / ((n : ℝ) + 1) * ((j : ℕ) : ℝ) := by
      intro j; rw [linspace_zero_eq]; ring
    have h2 : ∑ i : Fin (n + 1), 1 / ((n : ℝ) + 1) *
        ((F (linspace 0 z n i.castSucc) + linspace 0 z n i.castSucc * F' (linspace 0 z n i.castSucc))
        + (F (linspace 0 z n i.succ) + linspace 0 z n i.succ * F' (linspace 0 z n i.succ))) / 2
        = 1 / ((n : ℝ) + 1) * ∑ i ∈ Finset.range (n + 1),
          (g (z / ((n : ℝ) + 1) * i) + g (z / ((n : ℝ) + 1) * (i + 1))) / 2 := by
      rw [Finset.sum_range (fun i : ℕ => (g (z / ((n : ℝ) + 1) * i) + g (z / ((n : ℝ) + 1) * (i + 1))) / 2),
        Finset.mul_sum]
      apply Finset.sum_congr rfl
      intro i _
      rw [← hg _ (by linarith [linspace_nonneg hz0.le n i.castSucc]),
        ← hg _ (by linarith [linspace_nonneg hz0.le n i.succ]), e, e]
      simp only [Fin.val_succ, Fin.val_castSucc]
      push_cast
      ring
    rw [h2]; positivity

/-- One cell: if adding a convex `c` makes `g` convex, the trapezoid of `g` undershoots the increment of its
antiderivative `G` by at most the excess of `c`. -/
theorem cell_compare {g c c' G : ℝ → ℝ} (hgc : ContinuousOn g (Ici 0)) (hG : ∀ x, 0 ≤ x → HasDerivAt G (g x) x)
    (hcc : ConvexOn ℝ (Ici 0) c) (hd : ∀ t, 0 ≤ t → HasDerivAt c (c' t) t)
    (hFc : ConvexOn ℝ (Ici 0) (fun x => g x + c x)) {a b : ℝ} (ha : 0 ≤ a) (hab : a ≤ b) :
    G b - G a - (b - a) ^ 2 / 4 * (c' b - c' a) ≤ (b - a) * (g a + g b) / 2 := by
  have hsub : Icc a b ⊆ Ici 0 := fun x hx => ha.trans hx.1
  have hcont : ContinuousOn c (Ici 0) := fun x hx => (hd x hx).continuousAt.continuousWithinAt
  have h1 := cell_le_trap hab ((hgc.add hcont).mono hsub) (hFc.subset hsub (convex_Icc _ _))
  have h2 := trap_le_cell hab (hcont.mono hsub)
    (fun t ht => tangent_le hcc (hsub (left_mem_Icc.2 hab)) (hsub ht) (hd a ha))
    (fun t ht => tangent_le hcc (hsub (right_mem_Icc.2 hab)) (hsub ht) (hd b (ha.trans hab)))
  have i1 : IntervalIntegrable g MeasureTheory.volume a b :=
    (hgc.mono (by rw [uIcc_of_le hab]; exact hsub)).intervalIntegrable
  have i2 : IntervalIntegrable c MeasureTheory.volume a b :=
    (hcont.mono (by rw [uIcc_of_le hab]; exact hsub)).intervalIntegrable
  have h3 : ∫ x in a..b, g x = G b - G a := by
    apply intervalIntegral.integral_eq_sub_of_hasDerivAt _ i1
    intro x hx
    rw [uIcc_of_le hab] at hx
    exact hG x (hsub hx)
  have h4 : ∫ x in a..b, (g + c) x = (∫ x in a..b, g x) + ∫ x in a..b, c x := intervalIntegral.integral_add i1 i2
  simp only [Pi.add_apply] at h4 h1
  rw [h4, h3] at h1
  linarith

/-- Many cells, starting at the `j`-th. -/
theorem cells_compare {g c c' G : ℝ → ℝ} (hgc : ContinuousOn g (Ici 0)) (hG : ∀ x, 0 ≤ x → HasDerivAt G (g x) x)
    (hcc : ConvexOn ℝ (Ici 0) c) (hd : ∀ t, 0 ≤ t → HasDerivAt c (c' t) t)
    (hFc : ConvexOn ℝ (Ici 0) (fun x => g x + c x)) {δ : ℝ} (hδ : 0 < δ) (j m : ℕ) :
    (G (δ * ((j + m : ℕ) : ℝ)) - G (δ * j)) / δ - δ / 4 * (c' (δ * ((j + m : ℕ) : ℝ)) - c' (δ * j))
      ≤ ∑ i ∈ Finset.range m, (g (δ * ((j + i : ℕ) : ℝ)) + g (δ * (((j + i : ℕ) : ℝ) + 1))) / 2 := by
  induction m with
  | zero => simp
  | succ m ih =>
    rw [Finset.sum_range_succ]
    have h := cell_compare hgc hG hcc hd hFc (a := δ * ((j + m : ℕ) : ℝ)) (b := δ * (((j + m : ℕ) : ℝ) + 1))
      (by positivity) (by gcongr; linarith)
    have e : δ * (((j + m : ℕ) : ℝ) + 1) - δ * ((j + m : ℕ) : ℝ) = δ := by ring
    rw [e] at h
    have e2 : ((j + (m + 1) : ℕ) : ℝ) = ((j + m : ℕ) : ℝ) + 1 := by push_cast; ring
    rw [e2]
    have h' : (G (δ * (((j + m : ℕ) : ℝ) + 1)) - G (δ * ((j + m : ℕ) : ℝ))) / δ
        - δ / 4 * (c' (δ * (((j + m : ℕ) : ℝ) + 1)) - c' (δ * ((j + m : ℕ) : ℝ)))
        ≤ (g (δ * ((j + m : ℕ) : ℝ)) + g (δ * (((j + m : ℕ) : ℝ) + 1))) / 2 := by
      rw [← mul_le_mul_iff_right₀ hδ]
      refine le_trans (le_of_eq ?_) (h.trans (le_of_eq ?_))
      · field_simp
      · ring
    have h3 : (G (δ * (((j + m : ℕ) : ℝ) + 1)) - G (δ * j)) / δ
        = (G (δ * (((j + m : ℕ) : ℝ) + 1)) - G (δ * ((j + m : ℕ) : ℝ))) / δ
          + (G (δ * ((j + m : ℕ) : ℝ)) - G (δ * j)) / δ := by ring
    linarith

/-! ### lookback time -/

theorem Lf_sq {Om z : ℝ} (hO : PhysicalOm Om) (hz : -1 < z) :
    Lf Om z ^ 2 = 1 - Lth Om z + Lth Om z * Lv z ^ 3 := by
  have h := LP_pos hO hz
  have hu : (1 : ℝ) + z ≠ 0 := by linarith
  unfold Lf Lth Lv
  rw [div_pow, Real.sq_sqrt h.le, one_pow]
  have h' := h.ne'
  rw [one_div_pow, eq_comm]
  have : 1 - Om * (1 + z) ^ 3 / LP Om z + Om * (1 + z) ^ 3 / LP Om z * (1 / (1 + z) ^ 3)
      = (LP Om z - Om * (1 + z) ^ 3 + Om) / LP Om z := by field_simp
  rw [this]
  congr 1
  unfold LP; ring

theorem cubic_aux1 {e : ℝ} (e0 : 0 ≤ e) (e1 : e ≤ 3 / 10) : (105 / 8 - 45 * e) ^ 2 * (e + 1 / 125) ≤ 9 := by
  nlinarith [sq_nonneg (e - 105 / 1080), mul_nonneg e0 (sq_nonneg (e - 105 / 1080))]

theorem cubic_aux2 {e : ℝ} (e0 : 0 ≤ e) (e1 : 0 ≤ 21 / 20 - 279 / 50 * e) : (21 / 20 - 279 / 50 * e) ^ 2 * (e + 1 / 27) ≤ 1 / 16 := by
  nlinarith [sq_nonneg (e - 1 / 25), mul_nonneg e0 (sq_nonneg (e - 1 / 25))]

set_option maxHeartbeats 1000000 in
/-- The third derivative of `x/(E(1+x))` is at least `-(1+x)⁻²/4`, in terms of the matter fraction `t`, `v = 1/(1+x)`
and `X = 1/E`. -/
theorem poly_quarter {t v X : ℝ} (h0 : 0 ≤ t) (h1 : t ≤ 1) (v0 : 0 ≤ v) (v1 : v ≤ 1) (X0 : 0 ≤ X)
    (hX : X ^ 2 = 1 - t + t * v ^ 3) :
    -(1 / 4) ≤ v * X * (6 + 81 / 4 * t ^ 2
      + (1 - v) * (-6 - 3 * t + 81 / 4 * t ^ 2 - 405 / 8 * t ^ 3)) := by
  set q : ℝ := 3 * t - 81 / 2 * t ^ 2 + 405 / 8 * t ^ 3 with hq
  set P : ℝ := (1 - v) * q - v * (6 + 81 / 4 * t ^ 2) with hP
  have eP : 6 + 81 / 4 * t ^ 2 + (1 - v) * (-6 - 3 * t + 81 / 4 * t ^ 2 - 405 / 8 * t ^ 3) = -P := by
    rw [hP, hq]; ring
  rw [eP]
  clear eP
  suffices h : v * X * P ≤ 1 / 4 by linarith
  have X1 : X ≤ 1 := by
    have : t * v ^ 3 ≤ t := mul_le_of_le_one_right h0 (pow_le_one₀ v0 v1)
    nlinarith
  have hvX : 0 ≤ v * X := mul_nonneg v0 X0
  rcases le_or_gt P 0 with hP0 | hP0
  · nlinarith
  rcases le_or_gt t (1 / 10) with ht | ht
  · have a1 : q ≤ 3 / 10 := by
      have : q = 3 * t - t ^ 2 * (81 / 2 - 405 / 8 * t) := by rw [hq]; ring
      have h2 : 0 ≤ t ^ 2 * (81 / 2 - 405 / 8 * t) := mul_nonneg (sq_nonneg t) (by linarith)
      linarith
    have a2 : P ≤ 3 / 10 := by
      have : 0 ≤ v * (6 + 81 / 4 * t ^ 2) := by positivity
      have : (1 - v) * q ≤ (1 - v) * (3 / 10) := mul_le_mul_of_nonneg_left a1 (by linarith)
      rw [hP]; nlinarith
    have a3 : P ≤ 3 / 10 - 6 * v := by
      have : (1 - v) * q ≤ (1 - v) * (3 / 10) := mul_le_mul_of_nonneg_left a1 (by linarith)
      have : 0 ≤ v * (81 / 4 * t ^ 2) := by positivity
      rw [hP]; nlinarith
    have a4 : v ≤ 1 / 20 := by linarith
    calc v * X * P ≤ 1 / 20 * 1 * (3 / 10) := by gcongr
      _ ≤ _ := by norm_num
  rcases le_or_gt t (7 / 10) with ht' | ht'
  · exfalso
    have : q ≤ 0 := by
      have : q = t * (3 - 81 / 2 * t + 405 / 8 * t ^ 2) := by rw [hq]; ring
      rw [this]
      apply mul_nonpos_of_nonneg_of_nonpos h0
      nlinarith
    have : (1 - v) * q ≤ 0 := mul_nonpos_of_nonneg_of_nonpos (by linarith) this
    have : 0 ≤ v * (6 + 81 / 4 * t ^ 2) := by positivity
    linarith
  obtain ⟨e, rfl⟩ : ∃ e, t = 1 - e := ⟨1 - t, by ring⟩
  have e0 : 0 ≤ e := by linarith
  have e1 : e ≤ 3 / 10 := by linarith
  set a : ℝ := 105 / 8 - 45 * e with ha
  set b : ℝ := 315 / 8 - 171 / 2 * e with hb
  have hqa : q ≤ a := by
    have : a - q = e * (231 / 8 - 891 / 8 * e + 405 / 8 * e ^ 2) := by rw [hq, ha]; ring
    have h2 : 0 ≤ 231 / 8 - 891 / 8 * e + 405 / 8 * e ^ 2 := by nlinarith
    have := mul_nonneg e0 h2
    linarith
  have hPab : P ≤ a - b * v := by
    have : (1 - v) * q ≤ (1 - v) * a := mul_le_mul_of_nonneg_left hqa (by linarith)
    have h2 : 0 ≤ v * e ^ 2 := by positivity
    have e' : a - b * v - P = ((1 - v) * a - (1 - v) * q) + 81 / 4 * (v * e ^ 2) := by rw [hP, ha, hb]; ring
    linarith
  have hb0 : 0 < b := by rw [hb]; linarith
  have hab : a ≤ b / 3 := by rw [ha, hb]; linarith
  have hX2 : X ^ 2 ≤ e + v ^ 3 := by
    have : 0 ≤ e * v ^ 3 := by positivity
    nlinarith
  have hv3 : v ≤ 1 / 3 := by
    by_contra hc
    push Not at hc
    have := mul_lt_mul_of_pos_left hc hb0
    linarith
  have ha0 : 0 < a := by
    have := mul_nonneg hb0.le v0; linarith
  have key : ∀ A Y : ℝ, v * (a - b * v) ≤ A → 0 ≤ A → e + v ^ 3 ≤ Y → A ^ 2 * Y ≤ 1 / 16 → v * X * P ≤ 1 / 4 := by
    intro A Y hA hA0 hY hAY
    have h1 : v * P ≤ A := (mul_le_mul_of_nonneg_left hPab v0).trans hA
    have h2 : 0 ≤ v * P := mul_nonneg v0 hP0.le
    have h3 : (v * P * X) ^ 2 ≤ 1 / 16 := by
      calc (v * P * X) ^ 2 = (v * P) ^ 2 * X ^ 2 := by ring
        _ ≤ A ^ 2 * Y := by gcongr; exact hX2.trans hY
        _ ≤ _ := hAY
    have h4 : v * P * X ≤ 1 / 4 := by
      apply le_of_sq_le_sq _ (by norm_num)
      refine h3.trans (by norm_num)
    linarith
  rcases le_or_gt v (1 / 5) with hv | hv
  · apply key (a ^ 2 / (4 * b)) (e + 1 / 125) _ (by positivity)
    · have : v ^ 3 ≤ (1 / 5) ^ 3 := pow_le_pow_left₀ v0 hv 3
      norm_num at this ⊢; linarith
    · have h1 : a ^ 2 * (e + 1 / 125) ≤ 9 := by
        rw [ha]; exact cubic_aux1 e0 e1
      have h2 : (a ^ 2 / (4 * b)) ^ 2 * (e + 1 / 125) = (a / b) ^ 2 * (a ^ 2 * (e + 1 / 125)) / 16 := by
        field_simp; ring
      rw [h2]
      have h3 : a / b ≤ 1 / 3 := by rw [div_le_iff₀ hb0]; linarith
      have h4 : (a / b) ^ 2 ≤ (1 / 3) ^ 2 := pow_le_pow_left₀ (by positivity) h3 2
      have h5 : 0 ≤ a ^ 2 * (e + 1 / 125) := by positivity
      nlinarith
    · rw [le_div_iff₀ (by positivity)]
      nlinarith [sq_nonneg (a - 2 * b * v)]
  · have hB0 : 0 ≤ 1 / 5 * (a - b / 5) := by
      by_contra hc
      push Not at hc
      have := mul_lt_mul_of_pos_left hv hb0
      linarith
    apply key (1 / 5 * (a - b / 5)) (e + 1 / 27) _ hB0
    · have : v ^ 3 ≤ (1 / 3) ^ 3 := pow_le_pow_left₀ v0 hv3 3
      norm_num at this ⊢; linarith
    · have e2 : 1 / 5 * (a - b / 5) = 21 / 20 - 279 / 50 * e := by rw [ha, hb]; ring
      rw [e2] at hB0 ⊢
      exact cubic_aux2 e0 hB0
    · have h1 : a - b * (v + 1 / 5) ≤ 0 := by
        have := mul_lt_mul_of_pos_left hv hb0
        linarith
      have h2 : (v - 1 / 5) * (a - b * (v + 1 / 5)) ≤ 0 := mul_nonpos_of_nonneg_of_nonpos (by linarith) h1
      have e3 : v * (a - b * v) - 1 / 5 * (a - b / 5) = (v - 1 / 5) * (a - b * (v + 1 / 5)) := by ring
      linarith

/-- gain of the first cell -/
theorem first_cell_gain {t v X : ℝ} (v0 : 0 < v) (v1 : v < 1) (X0 : 0 ≤ X) (X1 : X ≤ 1)
    (hX : X ^ 2 = 1 - t + t * v ^ 3) :
    3 / 4 * (1 - v) ^ 2 ≤ 1 + v * X * (1 - (1 - v) * (1 + 3 / 2 * t)) - 2 * (v * X) := by
  set w := 1 - v with hw
  set m := 1 + v + v ^ 2 with hm
  have hm0 : 0 < m := by rw [hm]; positivity
  have ht : t * w = (1 - X ^ 2) / m := by
    rw [eq_div_iff hm0.ne', hX, hw, hm]; ring
  have hd : 0 ≤ 1 - X := by linarith
  have e : 1 + v * X * (1 - w * (1 + 3 / 2 * t)) - 2 * (v * X)
      = w ^ 2 + v * (1 - X) / m * (3 / 2 * (1 - X) * (2 + X) - w ^ 2 * (1 + v)) := by
    have e1 : 1 + v * X * (1 - w * (1 + 3 / 2 * t)) - 2 * (v * X)
        = 1 - v * X * (1 + w) - 3 / 2 * (v * X) * (t * w) := by ring
    rw [e1, ht]
    field_simp
    rw [hw, hm]; ring
  rw [e]
  have h1 : -(2 * w ^ 2) + 3 * (1 - X) ≤ 3 / 2 * (1 - X) * (2 + X) - w ^ 2 * (1 + v) := by
    nlinarith [mul_nonneg hd X0, sq_nonneg w]
  have h2 : v / m ≤ 1 := by rw [div_le_one hm0, hm]; nlinarith
  have h3 : -(w ^ 4 / 4) ≤ (1 - X) * (-(2 * w ^ 2) + 3 * (1 - X)) + w ^ 4 / 12 := by
    nlinarith [sq_nonneg (w ^ 2 - 3 * (1 - X))]
  have h4 : -(w ^ 4 / 3) ≤ (1 - X) * (3 / 2 * (1 - X) * (2 + X) - w ^ 2 * (1 + v)) := by
    have := mul_le_mul_of_nonneg_left h1 hd; linarith
  have hvm : v / m ≤ 1 / 3 := by
    rw [div_le_iff₀ hm0, hm]; nlinarith [sq_nonneg (1 - v)]
  have hvm0 : 0 ≤ v / m := by positivity
  have h5 : -(w ^ 4 / 9) ≤ v / m * ((1 - X) * (3 / 2 * (1 - X) * (2 + X) - w ^ 2 * (1 + v))) := by
    have := mul_le_mul_of_nonneg_left h4 hvm0
    have h6 : v / m * (w ^ 4 / 3) ≤ 1 / 3 * (w ^ 4 / 3) := mul_le_mul_of_nonneg_right hvm (by positivity)
    linarith
  have h6 : w ^ 4 ≤ w ^ 2 := by
    have hw0 : 0 ≤ w := by rw [hw]; linarith
    exact pow_le_pow_of_le_one hw0 (by rw [hw]; linarith) (by norm_num)
  have e3 : v * (1 - X) / m * (3 / 2 * (1 - X) * (2 + X) - w ^ 2 * (1 + v))
      = v / m * ((1 - X) * (3 / 2 * (1 - X) * (2 + X) - w ^ 2 * (1 + v))) := by ring
  rw [e3]; nlinarith

theorem Lq_le_hi {Om z : ℝ} (hO : PhysicalOm Om) (hz : 0 ≤ z) (hz' : z ≤ 103) : 1 / 300 < 511 * Lq Om z := by
  have h1 := Lq_ge hO hz
  have h2 : Real.sqrt ((1 + z) ^ 3) ≤ 1061 := by
    rw [show (1061 : ℝ) = Real.sqrt (1061 ^ 2) by rw [Real.sqrt_sq]; norm_num]
    apply Real.sqrt_le_sqrt
    calc (1 + z) ^ 3 ≤ 104 ^ 3 := pow_le_pow_left₀ (by linarith) (by linarith) 3
      _ ≤ _ := by norm_num
  have h3 : 1 / 1061 / 104 ≤ Lq Om z := by
    refine le_trans ?_ h1
    have := Real.sqrt_pos.2 (by positivity : 0 < (1 + z) ^ 3)
    gcongr
    linarith
  linarith

/-- In flat LCDM the lookback time table sum strictly increases with the redshift, without limit. -/
theorem Ttrap_strictMonoOn_Ici {Om : ℝ} (hO : PhysicalOm Om) :
    StrictMonoOn (fun z => Ttrap z Om (-1) 0) (Ici 0) := by
  have hconv : ConvexOn ℝ (Ici 0) (fun x => Lgq Om x + -(1 / 4) * Real.log (1 + x)) :=
    convexOn_Ici (fun x hx => (Lgq_deriv hO hx).add (neglog_deriv hx (1 / 4)))
      (fun x hx => (Lgq_deriv2 hO hx).add (neglog_deriv2 hx (1 / 4)))
      (fun x hx => by
        have hx' : -1 < x := by linarith
        have h1 := poly_quarter (Lth_nonneg hO hx') (Lth_le_one hO hx') (Lv_pos hx').le (Lv_le_one hx)
          (Lf_pos hO hx').le (Lf_sq hO hx')
        have h2 := mul_le_mul_of_nonneg_left h1 (sq_nonneg (Lv x))
        rw [Lq_eq]
        nlinarith)
  have h := unif_strictMono_of_pos (F := Lq Om) (g := Lgq Om) (fun t ht => Lq_deriv hO ht) (fun t ht => Lgq_eq ht)
    510 le_rfl (by
      intro δ hδ _
      have hG : ∀ x, 0 ≤ x → HasDerivAt (fun x => x * Lq Om x) (Lgq Om x) x := by
        intro x hx
        have := (hasDerivAt_id x).mul (Lq_deriv hO (by linarith : -1 < x))
        refine this.congr_deriv ?_
        rw [Lgq_eq (by linarith)]; simp
      have hc := cells_compare (g := Lgq Om) (G := fun x => x * Lq Om x) (contOn_Ici fun x hx => Lgq_deriv hO hx) hG
        (neglog_convex (by norm_num : (0 : ℝ) ≤ 1 / 4)) (fun t ht => neglog_deriv (by linarith) (1 / 4)) hconv hδ 1 510
      rw [Finset.sum_range_succ']
      have e0 : ∀ i : ℕ, ((1 + i : ℕ) : ℝ) = ((i + 1 : ℕ) : ℝ) := fun i => by push_cast; ring
      simp only [e0] at hc
      refine lt_of_lt_of_le ?_ (add_le_add_left hc _)
      have hδ' : -1 < δ := by linarith
      have hv1 : Lv δ < 1 := by unfold Lv; rw [div_lt_one (by linarith)]; linarith
      have hg1 := first_cell_gain (Lv_pos hδ') hv1 (Lf_pos hO hδ').le (Lf_le_one hO hδ.le) (Lf_sq hO hδ')
      have h0 : Lgq Om 0 = 1 := by simp [Lgq, Lv, Lq, LP]
      have hF : 0 < Lq Om (δ * 511) := Lq_pos hO (by linarith)
      have hv5 := Lv_pos (by linarith : -1 < δ * 511)
      have hw : δ * Lv δ = 1 - Lv δ := by unfold Lv; field_simp; ring
      have e1 : Lgq Om δ = Lv δ * Lf Om δ * (1 - (1 - Lv δ) * (1 + 3 / 2 * Lth Om δ)) := by
        unfold Lgq; rw [Lq_eq]; ring
      have e2 : Lq Om δ = Lv δ * Lf Om δ := by rw [Lq_eq]; ring
      have e3 : (δ * 511 * Lq Om (δ * 511) - δ * 1 * Lq Om (δ * 1)) / δ = 511 * Lq Om (δ * 511) - Lq Om δ := by
        rw [mul_one]; field_simp
      norm_num at e3 ⊢
      rw [e3, h0]
      have hbig : 0 < 3 / 8 * (1 - Lv δ) ^ 2 - (1 - Lv δ) / 16 + 511 * Lq Om (δ * 511) := by
        rcases le_or_gt (δ * 511) 103 with hz | hz
        · have := Lq_le_hi hO (by positivity : 0 ≤ δ * 511) hz
          nlinarith [sq_nonneg ((1 - Lv δ) - 1 / 12)]
        · have : 1 / 6 ≤ 1 - Lv δ := by
            have : Lv δ ≤ 5 / 6 := by
              unfold Lv; rw [div_le_iff₀ (by linarith)]; linarith
            linarith
          nlinarith
      have h7 : δ / 4 * (-(1 / 4 * Lv (δ * 511)) + 1 / 4 * Lv δ) ≤ (1 - Lv δ) / 16 := by
        have := mul_nonneg hδ.le hv5.le
        nlinarith
      rw [e1, e2]
      linarith)
  exact h.congr fun z hz => (Ttrap_lcdm Om hz).symm

end Dsps.Lemmas
