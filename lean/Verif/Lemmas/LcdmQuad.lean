import Verif.Lemmas.Lcdm

/-! Quadrature errors of the uniform tables and monotonicity of distance and lookback time in flat LCDM. -/
namespace Dsps.Lemmas
open Jnp Dsps.Utils Dsps.FlatWcdm Spec Set
open scoped BigOperators

variable {n : ℕ}

theorem linspace_mono {z : ℝ} (hz : 0 ≤ z) (n : ℕ) : Monotone (linspace 0 z n) := by
  intro i j hij
  rw [linspace_zero_eq, linspace_zero_eq]
  have : ((i : ℕ) : ℝ) ≤ (j : ℕ) := by exact_mod_cast hij
  gcongr

theorem linspace_first (z : ℝ) (n : ℕ) : linspace 0 z n 0 = 0 := by rw [linspace_zero_eq]; simp
theorem linspace_last (z : ℝ) (n : ℕ) : linspace 0 z n (Fin.last (n + 1)) = z := by simp [linspace]

theorem linspace_step (z : ℝ) (n : ℕ) (i : Fin (n + 1)) :
    linspace 0 z n i.succ - linspace 0 z n i.castSucc = z / ((n : ℝ) + 1) := by
  rw [linspace_zero_eq, linspace_zero_eq]
  simp only [Fin.val_succ, Fin.val_castSucc]
  push_cast; ring

theorem trapz_add (x y y' : Fin (n + 1) → ℝ) : trapz x (fun i => y i + y' i) = trapz x y + trapz x y' := by
  rw [trapz_eq, trapz_eq, trapz_eq, ← Finset.sum_add_distrib]
  exact Finset.sum_congr rfl fun i _ => by ring

theorem trapz_sub (x y y' : Fin (n + 1) → ℝ) : trapz x (fun i => y i - y' i) = trapz x y - trapz x y' := by
  rw [trapz_eq, trapz_eq, trapz_eq, ← Finset.sum_sub_distrib]
  exact Finset.sum_congr rfl fun i _ => by ring

theorem convex_unif_ge {f : ℝ → ℝ} (hf : ContinuousOn f (Ici 0)) (hc : ConvexOn ℝ (Ici 0) f) {z : ℝ} (hz : 0 ≤ z)
    (n : ℕ) : ∫ t in (0 : ℝ)..z, f t ≤ trapz (linspace 0 z n) (fun i => f (linspace 0 z n i)) := by
  have := integral_le_trapz (n := n + 1) ordConnected_Ici hf hc (linspace 0 z n) (linspace_mono hz n)
    (fun i => linspace_nonneg hz n i)
  rwa [linspace_first, linspace_last] at this

theorem convex_unif_le {f f' : ℝ → ℝ} (hf : ContinuousOn f (Ici 0)) (hc : ConvexOn ℝ (Ici 0) f)
    (hd : ∀ t, 0 ≤ t → HasDerivAt f (f' t) t) {z : ℝ} (hz : 0 ≤ z)
    (n : ℕ) : trapz (linspace 0 z n) (fun i => f (linspace 0 z n i))
      ≤ (∫ t in (0 : ℝ)..z, f t) + (z / ((n : ℝ) + 1)) ^ 2 / 4 * (f' z - f' 0) := by
  have := trapz_le_integral (n := n + 1) ordConnected_Ici hf hc (fun t ht => hd t ht) (linspace 0 z n)
    (linspace_mono hz n) (fun i => linspace_nonneg hz n i)
  simp_rw [linspace_step] at this
  rw [← Finset.mul_sum, linspace_first, linspace_last,
    sum_telescope (fun i => f' (linspace 0 z n i)), linspace_first, linspace_last] at this
  exact this

theorem intInt {f : ℝ → ℝ} (hf : ContinuousOn f (Ici 0)) {z : ℝ} (hz : 0 ≤ z) :
    IntervalIntegrable f MeasureTheory.volume 0 z :=
  (hf.mono (by rw [uIcc_of_le hz]; exact fun x hx => hx.1)).intervalIntegrable

/-- If adding a convex `c` makes `F` convex, the trapezoid rule undershoots `∫F` by at most the excess of `c`. -/
theorem compare_ge {F c c' : ℝ → ℝ} (hF : ContinuousOn F (Ici 0)) (hc : ContinuousOn c (Ici 0))
    (hcc : ConvexOn ℝ (Ici 0) c) (hd : ∀ t, 0 ≤ t → HasDerivAt c (c' t) t)
    (hFc : ConvexOn ℝ (Ici 0) (fun x => F x + c x)) {z : ℝ} (hz : 0 ≤ z) (n : ℕ) :
    (∫ t in (0 : ℝ)..z, F t) - (z / ((n : ℝ) + 1)) ^ 2 / 4 * (c' z - c' 0)
      ≤ trapz (linspace 0 z n) (fun i => F (linspace 0 z n i)) := by
  have h1 := convex_unif_ge (f := fun x => F x + c x) (hF.add hc) hFc hz n
  have h2 := convex_unif_le hc hcc hd hz n
  rw [intervalIntegral.integral_add (intInt hF hz) (intInt hc hz), trapz_add] at h1
  linarith

theorem compare_le {F c c' : ℝ → ℝ} (hF : ContinuousOn F (Ici 0)) (hc : ContinuousOn c (Ici 0))
    (hcc : ConvexOn ℝ (Ici 0) c) (hd : ∀ t, 0 ≤ t → HasDerivAt c (c' t) t)
    (hFc : ConvexOn ℝ (Ici 0) (fun x => c x - F x)) {z : ℝ} (hz : 0 ≤ z) (n : ℕ) :
    trapz (linspace 0 z n) (fun i => F (linspace 0 z n i)) ≤
    (∫ t in (0 : ℝ)..z, F t) + (z / ((n : ℝ) + 1)) ^ 2 / 4 * (c' z - c' 0) := by
  have h1 := convex_unif_ge (f := fun x => c x - F x) (hc.sub hF) hFc hz n
  have h2 := convex_unif_le hc hcc hd hz n
  rw [intervalIntegral.integral_sub (intInt hc hz) (intInt hF hz), trapz_sub] at h1
  linarith

/-! ### derivative of a trapezoid sum with respect to the end of its table -/

theorem unif_hasDeriv {F F' : ℝ → ℝ} (hF : ∀ t, 0 ≤ t → HasDerivAt F (F' t) t) {z : ℝ} (hz : 0 ≤ z) (n : ℕ) :
    HasDerivAt (fun z => trapz (linspace 0 z n) (fun i => F (linspace 0 z n i)))
      (∑ i : Fin (n + 1), 1 / ((n : ℝ) + 1) *
        ((F (linspace 0 z n i.castSucc) + linspace 0 z n i.castSucc * F' (linspace 0 z n i.castSucc))
        + (F (linspace 0 z n i.succ) + linspace 0 z n i.succ * F' (linspace 0 z n i.succ))) / 2) z := by
  have e : (fun z => trapz (linspace 0 z n) (fun i => F (linspace 0 z n i)))
      = fun z => ∑ i : Fin (n + 1), z / ((n : ℝ) + 1) * (F (linspace 0 z n i.castSucc) + F (linspace 0 z n i.succ)) / 2 := by
    funext z; rw [trapz_linspace]
  rw [e]
  apply HasDerivAt.fun_sum
  intro i _
  have hl : ∀ j : Fin (n + 2), HasDerivAt (fun z => F (linspace 0 z n j))
      (F' (linspace 0 z n j) * ((j : ℕ) / ((n : ℝ) + 1))) z := by
    intro j
    have h0 : HasDerivAt (fun z => linspace 0 z n j) ((j : ℕ) / ((n : ℝ) + 1)) z := by
      have : (fun z => linspace 0 z n j) = fun z => z * ((j : ℕ) / ((n : ℝ) + 1)) := by
        funext z; rw [linspace_zero_eq]
      rw [this]
      simpa using (hasDerivAt_id z).mul_const (((j : ℕ) : ℝ) / ((n : ℝ) + 1))
    exact (hF _ (linspace_nonneg hz n j)).comp z h0
  have h := (((hasDerivAt_id z).div_const ((n : ℝ) + 1)).mul ((hl i.castSucc).add (hl i.succ))).div_const 2
  refine h.congr_deriv ?_
  simp only [id, Pi.add_apply]
  have e1 := linspace_zero_eq z n i.castSucc
  have e2 := linspace_zero_eq z n i.succ
  generalize linspace 0 z n i.castSucc = a at *
  generalize linspace 0 z n i.succ = b at *
  generalize ((i.castSucc : ℕ) : ℝ) / ((n : ℝ) + 1) = t at *
  generalize ((i.succ : ℕ) : ℝ) / ((n : ℝ) + 1) = s at *
  subst e1 e2
  ring

/-- Monotonicity criterion for trapezoid sums over `[0,z]` as a function of `z`. -/
theorem unif_strictMonoOn {F F' g g' c c' : ℝ → ℝ} (hF : ∀ t, -1 < t → HasDerivAt F (F' t) t)
    (hg : ∀ t, -1 < t → g t = F t + t * F' t) (hg' : ∀ t, -1 < t → HasDerivAt g (g' t) t)
    (hcc : ConvexOn ℝ (Ici 0) c) (hd : ∀ t, -1 < t → HasDerivAt c (c' t) t)
    (hFc : ConvexOn ℝ (Ici 0) (fun x => g x + c x)) (n : ℕ) {Z : ℝ}
    (hZ : ∀ z, 0 < z → z < Z → (z / ((n : ℝ) + 1)) ^ 2 / 4 * (c' z - c' 0) < z * F z) :
    StrictMonoOn (fun z => trapz (linspace 0 z n) (fun i => F (linspace 0 z n i))) (Icc 0 Z) := by
  have hF0 : ∀ t, 0 ≤ t → HasDerivAt F (F' t) t := fun t ht => hF t (by linarith)
  apply strictMonoOn_of_deriv_pos (convex_Icc 0 Z)
  · intro x hx
    exact (unif_hasDeriv hF0 hx.1 n).continuousAt.continuousWithinAt
  · intro z hz
    rw [interior_Icc] at hz
    rw [(unif_hasDeriv hF0 hz.1.le n).deriv]
    have h1 := compare_ge (contOn_Ici hg') (contOn_Ici hd) hcc (fun t ht => hd t (by linarith)) hFc hz.1.le n
    have h2 : ∫ t in (0 : ℝ)..z, g t = z * F z := by
      have : ∀ x ∈ uIcc 0 z, HasDerivAt (fun x => x * F x) (g x) x := by
        intro x hx
        rw [uIcc_of_le hz.1.le] at hx
        have := (hasDerivAt_id x).mul (hF0 x hx.1)
        refine this.congr_deriv ?_
        rw [hg x (by linarith [hx.1])]; simp
      rw [intervalIntegral.integral_eq_sub_of_hasDerivAt this (intInt (contOn_Ici hg') hz.1.le)]
      simp
    have h3 := hZ z hz.1 hz.2
    have h4 : 0 < trapz (linspace 0 z n) (fun i => g (linspace 0 z n i)) := by linarith
    rw [trapz_linspace] at h4
    have h5 : ∑ i : Fin (n + 1), z / ((n : ℝ) + 1) * (g (linspace 0 z n i.castSucc) + g (linspace 0 z n i.succ)) / 2
        = z * ∑ i : Fin (n + 1), 1 / ((n : ℝ) + 1) *
        ((F (linspace 0 z n i.castSucc) + linspace 0 z n i.castSucc * F' (linspace 0 z n i.castSucc))
        + (F (linspace 0 z n i.succ) + linspace 0 z n i.succ * F' (linspace 0 z n i.succ))) / 2 := by
      rw [Finset.mul_sum]
      apply Finset.sum_congr rfl
      intro i _
      rw [hg _ (by linarith [linspace_nonneg hz.1.le n i.castSucc]),
        hg _ (by linarith [linspace_nonneg hz.1.le n i.succ])]
      ring
    rw [h5] at h4
    exact pos_of_mul_pos_right h4 hz.1.le

/-! ### LCDM -/

theorem Dtrap_lcdm (Om : ℝ) {z : ℝ} (hz : 0 ≤ z) :
    Dtrap z Om (-1) 0 = trapz (linspace 0 z 254) (fun i => Lf Om (linspace 0 z 254 i)) := by
  unfold Dtrap
  congr 1; funext i
  rw [Ez_lcdm Om (by linarith [linspace_nonneg hz 254 i])]; rfl

theorem Ttrap_lcdm (Om : ℝ) {z : ℝ} (hz : 0 ≤ z) :
    Ttrap z Om (-1) 0 = trapz (linspace 0 z 510) (fun i => Lq Om (linspace 0 z 510 i)) := by
  unfold Ttrap
  congr 1; funext i
  rw [Ez_lcdm Om (by linarith [linspace_nonneg hz 510 i])]; rfl

theorem neglog_convex {k : ℝ} (hk : 0 ≤ k) : ConvexOn ℝ (Ici 0) (fun z => -k * Real.log (1 + z)) :=
  convexOn_Ici (fun _ hx => neglog_deriv hx k) (fun _ hx => neglog_deriv2 hx k) (fun x _ => by positivity)

theorem mulv_convex {k : ℝ} (hk : 0 ≤ k) : ConvexOn ℝ (Ici 0) (fun z => k * Lv z) :=
  convexOn_Ici (fun _ hx => mulv_deriv hx k) (fun _ hx => mulv_deriv2 hx k) (fun x hx => by
    have := Lv_pos (by linarith : -1 < x); positivity)

theorem Dtrap_quad {Om z : ℝ} (hO : PhysicalOm Om) (hz : 0 ≤ z) :
    |Dtrap z Om (-1) 0 - ∫ t in (0 : ℝ)..z, Lf Om t| ≤ 15 / 16 * (z / 255) ^ 2 * (z / (1 + z)) := by
  have hb : ∀ x, 0 ≤ x → |Lf Om x * Lv x ^ 2 * (27 / 4 * Lth Om x ^ 2 - 3 * Lth Om x)| ≤ 15 / 4 * Lv x ^ 2 := by
    intro x hx
    have hx' : -1 < x := by linarith
    rw [abs_mul, abs_of_nonneg (mul_nonneg (Lf_pos hO hx').le (sq_nonneg (Lv x)))]
    have h1 := poly_f (Lth_nonneg hO hx') (Lth_le_one hO hx')
    have h2 := Lf_le_one hO hx
    have h3 := (Lf_pos hO hx').le
    calc _ ≤ 1 * Lv x ^ 2 * (15 / 4) := by gcongr
      _ = _ := by ring
  have hc1 : ConvexOn ℝ (Ici 0) (fun x => Lf Om x + -(15 / 4) * Real.log (1 + x)) :=
    convexOn_Ici (fun x hx => (Lf_deriv hO hx).add (neglog_deriv hx (15 / 4)))
      (fun x hx => (Lf_deriv2 hO hx).add (neglog_deriv2 hx (15 / 4)))
      (fun x hx => by have := (abs_le.1 (hb x hx)).1; linarith)
  have hc2 : ConvexOn ℝ (Ici 0) (fun x => -(15 / 4) * Real.log (1 + x) - Lf Om x) :=
    convexOn_Ici (fun x hx => (neglog_deriv hx (15 / 4)).sub (Lf_deriv hO hx))
      (fun x hx => (neglog_deriv2 hx (15 / 4)).sub (Lf_deriv2 hO hx))
      (fun x hx => by have := (abs_le.1 (hb x hx)).2; linarith)
  have hf := contOn_Ici (fun x hx => Lf_deriv hO hx)
  have hl := contOn_Ici (fun x hx => neglog_deriv (z := x) hx (15 / 4))
  have h1 := compare_ge hf hl (neglog_convex (by norm_num))
    (fun t ht => neglog_deriv (by linarith) (15 / 4)) hc1 hz 254
  have h2 := compare_le hf hl (neglog_convex (by norm_num))
    (fun t ht => neglog_deriv (by linarith) (15 / 4)) hc2 hz 254
  rw [Dtrap_lcdm Om hz]
  have e : (z / (((254 : ℕ) : ℝ) + 1)) ^ 2 / 4 * (-(15 / 4) * Lv z - -(15 / 4) * Lv 0)
      = 15 / 16 * (z / 255) ^ 2 * (z / (1 + z)) := by
    unfold Lv; have : 1 + z ≠ 0 := by linarith
    push_cast; field_simp; ring
  rw [e] at h1 h2
  rw [abs_le]; constructor <;> linarith

theorem Ttrap_quad {Om z : ℝ} (hO : PhysicalOm Om) (hz : 0 ≤ z) :
    (∫ t in (0 : ℝ)..z, Lq Om t) ≤ Ttrap z Om (-1) 0 ∧
    Ttrap z Om (-1) 0 ≤ (∫ t in (0 : ℝ)..z, Lq Om t) + 5 / 8 * (z / 511) ^ 2 := by
  have hq := contOn_Ici (fun x hx => Lq_deriv hO hx)
  have h1 := convex_unif_ge hq (Lq_convex hO) hz 510
  have h2 := convex_unif_le hq (Lq_convex hO) (fun t ht => Lq_deriv hO (by linarith)) hz 510
  rw [Ttrap_lcdm Om hz]
  refine ⟨h1, h2.trans ?_⟩
  have hz' : -1 < z := by linarith
  have a1 : -(1 + 3 / 2 * Lth Om z) * Lv z * Lq Om z ≤ 0 := by
    have := Lth_nonneg hO hz'
    have := Lv_pos hz'
    have := Lq_pos hO hz'
    have : 0 ≤ (1 + 3 / 2 * Lth Om z) * Lv z * Lq Om z := by positivity
    linarith
  have a2 : Lv 0 = 1 := by simp [Lv]
  have a3 : Lq Om 0 = 1 := by simp [Lq, LP]
  have a4 : Lth Om 0 ≤ 1 := Lth_le_one hO (by norm_num)
  rw [a2, a3]
  have : (z / (((510 : ℕ) : ℝ) + 1)) ^ 2 / 4 * (-(1 + 3 / 2 * Lth Om z) * Lv z * Lq Om z - -(1 + 3 / 2 * Lth Om 0) * 1 * 1)
      ≤ (z / (((510 : ℕ) : ℝ) + 1)) ^ 2 / 4 * (5 / 2) := by
    apply mul_le_mul_of_nonneg_left _ (by positivity)
    linarith
  have e : (z / (((510 : ℕ) : ℝ) + 1)) ^ 2 / 4 * (5 / 2) = 5 / 8 * (z / 511) ^ 2 := by push_cast; ring
  linarith

theorem Lf_ge {Om z : ℝ} (hO : PhysicalOm Om) (hz : 0 ≤ z) : 1 / Real.sqrt ((1 + z) ^ 3) ≤ Lf Om z := by
  unfold Lf
  exact one_div_le_one_div_of_le (Real.sqrt_pos.2 (LP_pos hO (by linarith))) (Real.sqrt_le_sqrt (LP_le hO hz))

theorem Lq_ge {Om z : ℝ} (hO : PhysicalOm Om) (hz : 0 ≤ z) : 1 / Real.sqrt ((1 + z) ^ 3) / (1 + z) ≤ Lq Om z := by
  have := Lf_ge hO hz
  have h : 0 < 1 + z := by linarith
  have e : Lq Om z = Lf Om z / (1 + z) := by rw [Lq_eq]; unfold Lv; ring
  rw [e]; gcongr

theorem Lq_le_Lv {Om z : ℝ} (hO : PhysicalOm Om) (hz : 0 ≤ z) : Lq Om z ≤ Lv z := by
  rw [Lq_eq]; exact mul_le_of_le_one_left (Lv_pos (by linarith)).le (Lf_le_one hO hz)

end Dsps.Lemmas
