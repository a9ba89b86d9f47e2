import Verif.Lemmas.LcdmQuad

/-! The age table of `age_at_z0` in flat LCDM. -/
namespace Dsps.Lemmas
open Jnp Dsps.Utils Dsps.FlatWcdm Spec Set
open scoped BigOperators

/-- The redshift table of `age_at_z0`. -/
noncomputable def agrid : Fin 512 → ℝ := fun i => logspace 0 3 510 i - 1.0

noncomputable def Atrap (Om0 w0 wa : ℝ) : ℝ :=
  trapz (n := 511) agrid (fun i => 1 / Ez (agrid i) Om0 w0 wa / (1 + agrid i))

theorem age0_eq (Om0 w0 wa h : ℝ) : age_at_z0 Om0 w0 wa h = Th h * Atrap Om0 w0 wa := by
  unfold age_at_z0; rw [hubble_time_zero]; rfl

theorem agrid_eq (i : Fin 512) : agrid i = (10 : ℝ) ^ (3 * ((i : ℕ) / (511 : ℝ))) - 1 := by
  unfold agrid logspace exp10
  rw [linspace_zero_eq (3 : ℝ) 510 i]
  norm_num

theorem agrid_mono : StrictMono agrid := by
  intro i j hij
  rw [agrid_eq, agrid_eq]
  have : ((i : ℕ) : ℝ) < (j : ℕ) := by exact_mod_cast hij
  have h : (10 : ℝ) ^ (3 * ((i : ℕ) / (511 : ℝ))) < 10 ^ (3 * ((j : ℕ) / (511 : ℝ))) := by
    apply Real.rpow_lt_rpow_of_exponent_lt (by norm_num)
    linarith
  linarith

theorem agrid_zero : agrid 0 = 0 := by rw [agrid_eq]; simp
theorem agrid_last : agrid (Fin.last 511) = 999 := by
  rw [agrid_eq]; norm_num [Fin.val_last]

theorem agrid_nonneg (i : Fin 512) : 0 ≤ agrid i := by
  rw [← agrid_zero]; exact agrid_mono.monotone (Fin.zero_le i)

/-- grid ratio -/
noncomputable def aratio : ℝ := (10 : ℝ) ^ ((3 : ℝ) / 511)

theorem agrid_succ (i : Fin 511) : 1 + agrid i.succ = aratio * (1 + agrid i.castSucc) := by
  rw [agrid_eq, agrid_eq, aratio]
  simp only [Fin.val_succ, Fin.val_castSucc, add_sub_cancel]
  rw [← Real.rpow_add (by norm_num)]
  congr 1; push_cast; ring

theorem aratio_gt : 1 < aratio := Real.one_lt_rpow (by norm_num) (by norm_num)

theorem aratio_lt : aratio < 1.0137 := by
  have h : aratio ^ 511 = 1000 := by
    unfold aratio
    rw [← Real.rpow_natCast, ← Real.rpow_mul (by norm_num)]
    norm_num
  refine lt_of_pow_lt_pow_left₀ 511 (by norm_num) ?_
  rw [h, show 511 = 7 * 73 from rfl, pow_mul]
  have h7 : (1.0999 : ℝ) ≤ 1.0137 ^ 7 := by norm_num
  calc (1000 : ℝ) < 1.0999 ^ 73 := by norm_num
    _ ≤ _ := pow_le_pow_left₀ (by norm_num) h7 73

theorem Atrap_pos {Om0 : ℝ} (hO : PhysicalOm Om0) (w0 wa : ℝ) : 0 < Atrap Om0 w0 wa := by
  unfold Atrap
  rw [trapz_eq]
  apply Finset.sum_pos
  · intro i _
    have hp : ∀ j, 0 < 1 / Ez (agrid j) Om0 w0 wa / (1 + agrid j) := fun j => by
      have h0 := agrid_nonneg j
      have h1 := Ez_pos (by linarith : -1 < agrid j) hO w0 wa
      have h2 : 0 < 1 + agrid j := by linarith
      positivity
    have h1 := hp i.castSucc
    have h2 := hp i.succ
    have h3 : 0 < agrid i.succ - agrid i.castSucc := sub_pos.2 (agrid_mono Fin.castSucc_lt_succ)
    exact div_pos (mul_pos h3 (add_pos h1 h2)) (by norm_num)
  · exact Finset.univ_nonempty

theorem Atrap_anti_Om {Om0 Om1 w0 wa : ℝ} (hO : PhysicalOm Om0) (hOO : Om0 ≤ Om1)
    (hw : NonStiff w0 wa) : Atrap Om1 w0 wa ≤ Atrap Om0 w0 wa := by
  unfold Atrap
  rw [trapz_eq, trapz_eq]
  apply Finset.sum_le_sum
  intro i _
  have hp : ∀ j, 1 / Ez (agrid j) Om1 w0 wa / (1 + agrid j) ≤ 1 / Ez (agrid j) Om0 w0 wa / (1 + agrid j) := by
    intro j
    have h0 := agrid_nonneg j
    have := one_div_le_one_div_of_le (Ez_pos (by linarith) hO w0 wa) (Ez_mono_Om hOO hw h0)
    have h1 : 0 < 1 + agrid j := by linarith
    gcongr
  have h3 : 0 < agrid i.succ - agrid i.castSucc := sub_pos.2 (agrid_mono Fin.castSucc_lt_succ)
  have := mul_le_mul_of_nonneg_left (add_le_add (hp i.castSucc) (hp i.succ)) h3.le
  linarith

theorem Atrap_lcdm (Om : ℝ) : Atrap Om (-1) 0 = trapz (n := 511) agrid (fun i => Lq Om (agrid i)) := by
  unfold Atrap
  congr 1; funext i
  rw [Ez_lcdm Om (by linarith [agrid_nonneg i])]; rfl

theorem Lq_cont {Om : ℝ} (hO : PhysicalOm Om) : ContinuousOn (Lq Om) (Ici 0) :=
  contOn_Ici (fun _ hx => Lq_deriv hO hx)

theorem Lq_int {Om a b : ℝ} (hO : PhysicalOm Om) (ha : 0 ≤ a) (hb : 0 ≤ b) :
    IntervalIntegrable (Lq Om) MeasureTheory.volume a b :=
  ((Lq_cont hO).mono (fun x hx => by
    have : min a b ≤ x := by have := hx.1; simpa using this
    exact le_trans (le_min ha hb) this)).intervalIntegrable

theorem Atrap_ge {Om : ℝ} (hO : PhysicalOm Om) : ∫ t in (0 : ℝ)..999, Lq Om t ≤ Atrap Om (-1) 0 := by
  have := integral_le_trapz (n := 511) ordConnected_Ici (Lq_cont hO) (Lq_convex hO) agrid agrid_mono.monotone
    agrid_nonneg
  rwa [agrid_zero, agrid_last, ← Atrap_lcdm] at this

theorem Lq'_diff {Om a b : ℝ} (hO : PhysicalOm Om) (ha : 0 ≤ a) (hab : a ≤ b) :
    -(1 + 3 / 2 * Lth Om b) * Lv b * Lq Om b - -(1 + 3 / 2 * Lth Om a) * Lv a * Lq Om a
      ≤ 35 / 4 * Lv a ^ 2 * ∫ t in a..b, Lq Om t := by
  have hc : ContinuousOn (fun z => Lq Om z * Lv z ^ 2 * (2 + 27 / 4 * Lth Om z ^ 2)) (Icc a b) := by
    intro x hx
    have hx' : -1 < x := by linarith [hx.1]
    exact (((Lq_deriv hO hx').continuousAt.mul ((Lv_deriv hx').continuousAt.pow 2)).mul
      (continuousAt_const.add (continuousAt_const.mul ((Lth_deriv hO hx').continuousAt.pow 2)))).continuousWithinAt
  have h := intervalIntegral.integral_eq_sub_of_hasDerivAt (a := a) (b := b)
    (f := fun z => -(1 + 3 / 2 * Lth Om z) * Lv z * Lq Om z)
    (fun x hx => Lq_deriv2 hO (by rw [uIcc_of_le hab] at hx; linarith [hx.1]))
    ((hc.mono (by rw [uIcc_of_le hab])).intervalIntegrable)
  rw [← h, ← intervalIntegral.integral_const_mul]
  apply intervalIntegral.integral_mono_on hab
  · exact (hc.mono (by rw [uIcc_of_le hab])).intervalIntegrable
  · exact (Lq_int hO ha (ha.trans hab)).const_mul _
  · intro x hx
    have hx' : -1 < x := by linarith [hx.1]
    have h1 := Lth_nonneg hO hx'
    have h2 := Lth_le_one hO hx'
    have h3 := (Lq_pos hO hx').le
    have h4 : Lv x ≤ Lv a := one_div_le_one_div_of_le (by linarith) (by linarith [hx.1])
    have h5 := (Lv_pos hx').le
    have h6 : 2 + 27 / 4 * Lth Om x ^ 2 ≤ 35 / 4 := by nlinarith
    calc _ ≤ Lq Om x * Lv a ^ 2 * (35 / 4) := by gcongr
      _ = _ := by ring

theorem Atrap_le {Om : ℝ} (hO : PhysicalOm Om) :
    Atrap Om (-1) 0 ≤ (1 + 0.0005) * ∫ t in (0 : ℝ)..999, Lq Om t := by
  have h := trapz_le_integral (n := 511) ordConnected_Ici (Lq_cont hO) (Lq_convex hO)
    (fun t (ht : t ∈ Ici 0) => Lq_deriv hO (by simp at ht; linarith)) agrid agrid_mono.monotone agrid_nonneg
  rw [← Atrap_lcdm] at h
  have hs := sum_cells (f := Lq Om) agrid (fun i => Lq_int hO (agrid_nonneg _) (agrid_nonneg _))
  rw [agrid_zero, agrid_last] at h hs
  have hk : 35 / 16 * (aratio - 1) ^ 2 ≤ 0.0005 := by
    have h1 := aratio_gt
    have h2 := aratio_lt
    have h3 : aratio - 1 ≤ 0.0137 := by linarith
    have h4 : (aratio - 1) ^ 2 ≤ 0.0137 ^ 2 := pow_le_pow_left₀ (by linarith) h3 2
    nlinarith
  have hb : ∑ i : Fin 511, (agrid i.succ - agrid i.castSucc) ^ 2 / 4 *
      (-(1 + 3 / 2 * Lth Om (agrid i.succ)) * Lv (agrid i.succ) * Lq Om (agrid i.succ)
        - -(1 + 3 / 2 * Lth Om (agrid i.castSucc)) * Lv (agrid i.castSucc) * Lq Om (agrid i.castSucc))
      ≤ ∑ i : Fin 511, 0.0005 * ∫ t in agrid i.castSucc..agrid i.succ, Lq Om t := by
    apply Finset.sum_le_sum
    intro i _
    have h0 := agrid_nonneg i.castSucc
    have hle := (agrid_mono (Fin.castSucc_lt_succ (i := i))).le
    have hd := Lq'_diff hO h0 hle
    have hstep : agrid i.succ - agrid i.castSucc = (aratio - 1) * (1 + agrid i.castSucc) := by
      have := agrid_succ i; linarith
    have hI : 0 ≤ ∫ t in agrid i.castSucc..agrid i.succ, Lq Om t :=
      intervalIntegral.integral_nonneg hle (fun x hx => (Lq_pos hO (by linarith [hx.1])).le)
    have hv : Lv (agrid i.castSucc) * (1 + agrid i.castSucc) = 1 := by
      unfold Lv; field_simp
    rw [hstep]
    calc _ ≤ ((aratio - 1) * (1 + agrid i.castSucc)) ^ 2 / 4 *
          (35 / 4 * Lv (agrid i.castSucc) ^ 2 * ∫ t in agrid i.castSucc..agrid i.succ, Lq Om t) :=
          mul_le_mul_of_nonneg_left hd (div_nonneg (sq_nonneg _) (by norm_num))
      _ = 35 / 16 * (aratio - 1) ^ 2 * (Lv (agrid i.castSucc) * (1 + agrid i.castSucc)) ^ 2
          * ∫ t in agrid i.castSucc..agrid i.succ, Lq Om t := by ring
      _ ≤ _ := by rw [hv, one_pow, mul_one]; exact mul_le_mul_of_nonneg_right hk hI
  rw [← Finset.mul_sum, hs] at hb
  linarith

/-! ### Einstein–de Sitter comparison -/

theorem phys_one : PhysicalOm 1 := ⟨by norm_num, le_rfl⟩

theorem Lth_one {z : ℝ} (hz : -1 < z) : Lth 1 z = 1 := by
  unfold Lth
  have : LP 1 z = 1 * (1 + z) ^ 3 := by unfold LP; ring
  rw [this]
  have : 0 < 1 + z := by linarith
  exact div_self (by positivity)

theorem eds_integral {a b : ℝ} (ha : 0 ≤ a) (hb : 0 ≤ b) :
    ∫ t in a..b, Lq 1 t = 2 / 3 * (Lf 1 a - Lf 1 b) := by
  have : ∀ x ∈ uIcc a b, HasDerivAt (fun x => -(2 / 3) * Lf 1 x) (Lq 1 x) x := by
    intro x hx
    have hx' : -1 < x := by
      have h1 : min a b ≤ x := by have := hx.1; simpa using this
      have := le_min ha hb
      linarith
    refine ((Lf_deriv phys_one hx').const_mul (-(2 / 3))).congr_deriv ?_
    rw [Lth_one hx', Lq_eq]; ring
  rw [intervalIntegral.integral_eq_sub_of_hasDerivAt this (Lq_int phys_one ha hb)]
  ring

theorem Lf_one (z : ℝ) : Lf 1 z = 1 / Real.sqrt ((1 + z) ^ 3) := by unfold Lf LP; congr 2; ring

theorem Lq_ge_one {Om z : ℝ} (hO : PhysicalOm Om) (hz : 0 ≤ z) : Lq 1 z ≤ Lq Om z := by
  have := Lq_ge hO hz
  rw [Lq_eq, Lf_one]
  refine le_trans (le_of_eq ?_) this
  unfold Lv; ring

/-- The gap between the age table and the lookback table is positive up to redshift 35. -/
theorem age_gap {Om z : ℝ} (hO : PhysicalOm Om) (hz : 0 ≤ z) (hz1 : z ≤ 35) :
    Ttrap z Om (-1) 0 < Atrap Om (-1) 0 := by
  have h1 := Atrap_ge hO
  have h2 := (Ttrap_quad hO hz).2
  have h3 := intervalIntegral.integral_add_adjacent_intervals (Lq_int hO le_rfl hz)
    (Lq_int hO hz (by norm_num : (0 : ℝ) ≤ 999))
  have h4 : ∫ t in (z : ℝ)..999, Lq 1 t ≤ ∫ t in (z : ℝ)..999, Lq Om t := by
    apply intervalIntegral.integral_mono_on (by linarith) (Lq_int phys_one hz (by norm_num))
      (Lq_int hO hz (by norm_num))
    intro x hx; exact Lq_ge_one hO (by linarith [hx.1])
  rw [eds_integral hz (by norm_num)] at h4
  have h5 : (1 : ℝ) / 216 ≤ Lf 1 z := by
    rw [Lf_one]
    apply one_div_le_one_div_of_le (Real.sqrt_pos.2 (by positivity))
    rw [show (216 : ℝ) = Real.sqrt (216 ^ 2) by rw [Real.sqrt_sq]; norm_num]
    apply Real.sqrt_le_sqrt
    calc (1 + z) ^ 3 ≤ 36 ^ 3 := pow_le_pow_left₀ (by linarith) (by linarith) 3
      _ ≤ _ := by norm_num
  have h6 : Lf 1 999 ≤ 1 / 31622 := by
    rw [Lf_one]
    apply one_div_le_one_div_of_le (by norm_num)
    apply Real.le_sqrt_of_sq_le; norm_num
  have h7 : 5 / 8 * (z / 511) ^ 2 ≤ 5 / 8 * (35 / 511) ^ 2 := by gcongr
  norm_num at h7 h5 h6
  linarith

/-- Upper bound of the age table for `Om0 ≥ 0.3`. -/
theorem Atrap_upper : Atrap 0.3 (-1) 0 < 1.02 := by
  have hO : PhysicalOm 0.3 := by constructor <;> norm_num
  have h := Atrap_le hO
  have hcell : ∀ a b : ℝ, 0 ≤ a → a ≤ b → ∫ t in a..b, Lq 0.3 t ≤ (b - a) * (Lq 0.3 a + Lq 0.3 b) / 2 := by
    intro a b ha hab
    have hsub : Icc a b ⊆ Ici 0 := fun x hx => ha.trans hx.1
    exact cell_le_trap hab ((Lq_cont hO).mono hsub) ((Lq_convex hO).subset hsub (convex_Icc _ _))
  have q0 : Lq 0.3 0 = 1 := by unfold Lq LP; norm_num
  have qb : ∀ z s : ℝ, 0 ≤ z → 0 < s → s ^ 2 ≤ LP 0.3 z → Lq 0.3 z ≤ 1 / s / (1 + z) := by
    intro z s hz hs hle
    unfold Lq
    have : s ≤ Real.sqrt (LP 0.3 z) := Real.le_sqrt_of_sq_le hle
    have : 0 < 1 + z := by linarith
    gcongr
  have q1 := qb 0.5 1.3 (by norm_num) (by norm_num) (by unfold LP; norm_num)
  have q2 := qb 1 1.75 (by norm_num) (by norm_num) (by unfold LP; norm_num)
  have q3 := qb 2 2.9 (by norm_num) (by norm_num) (by unfold LP; norm_num)
  have c1 := hcell 0 0.5 le_rfl (by norm_num)
  have c2 := hcell 0.5 1 (by norm_num) (by norm_num)
  have c3 := hcell 1 2 (by norm_num) (by norm_num)
  have c4 : ∫ t in (2 : ℝ)..999, Lq 0.3 t ≤ ∫ t in (2 : ℝ)..999, 1 / 0.547 * Lq 1 t := by
    apply intervalIntegral.integral_mono_on (by norm_num) (Lq_int hO (by norm_num) (by norm_num))
      ((Lq_int phys_one (by norm_num) (by norm_num)).const_mul _)
    intro x hx
    have hx0 : 0 ≤ x := by linarith [hx.1]
    have e : Lq 1 x = 1 / Real.sqrt ((1 + x) ^ 3) / (1 + x) := by rw [Lq_eq, Lf_one]; unfold Lv; ring
    rw [e]
    unfold Lq
    have h1 : 0.547 * Real.sqrt ((1 + x) ^ 3) ≤ Real.sqrt (LP 0.3 x) := by
      apply Real.le_sqrt_of_sq_le
      rw [mul_pow, Real.sq_sqrt (by positivity)]
      unfold LP
      have : 0 ≤ (1 + x) ^ 3 := by positivity
      nlinarith
    have h2 : 0 < Real.sqrt ((1 + x) ^ 3) := Real.sqrt_pos.2 (by positivity)
    calc _ ≤ 1 / (0.547 * Real.sqrt ((1 + x) ^ 3)) / (1 + x) := by gcongr
      _ = _ := by field_simp
  rw [intervalIntegral.integral_const_mul, eds_integral (by norm_num) (by norm_num)] at c4
  have f2 : Lf 1 2 ≤ 1 / 5.19 := by
    rw [Lf_one]
    apply one_div_le_one_div_of_le (by norm_num)
    apply Real.le_sqrt_of_sq_le; norm_num
  have f999 : 0 < Lf 1 999 := Lf_pos phys_one (by norm_num)
  have i1 := intervalIntegral.integral_add_adjacent_intervals
    (Lq_int hO (le_refl (0 : ℝ)) (by norm_num : (0 : ℝ) ≤ 0.5)) (Lq_int hO (by norm_num) (by norm_num : (0 : ℝ) ≤ 1))
  have i2 := intervalIntegral.integral_add_adjacent_intervals
    (Lq_int hO (le_refl (0 : ℝ)) (by norm_num : (0 : ℝ) ≤ 1)) (Lq_int hO (by norm_num) (by norm_num : (0 : ℝ) ≤ 2))
  have i3 := intervalIntegral.integral_add_adjacent_intervals
    (Lq_int hO (le_refl (0 : ℝ)) (by norm_num : (0 : ℝ) ≤ 2)) (Lq_int hO (by norm_num) (by norm_num : (0 : ℝ) ≤ 999))
  norm_num at q0 q1 q2 q3 c1 c2 c3 c4 f2 i1 i2 i3 h ⊢
  linarith

theorem Ttrap_big {Om z : ℝ} (hO : PhysicalOm Om) (w0 wa : ℝ) (hz : 0 ≤ z) : z / 1022 ≤ Ttrap z Om w0 wa := by
  unfold Ttrap
  rw [trapz_linspace]
  have hp : ∀ j : Fin 512, 0 < 1 / Ez (linspace 0 z 510 j) Om w0 wa / (1 + linspace 0 z 510 j) := fun j => by
    have h0 := linspace_nonneg hz 510 j
    have h1 := Ez_pos (by linarith : -1 < linspace 0 z 510 j) hO w0 wa
    have h2 : 0 < 1 + linspace 0 z 510 j := by linarith
    positivity
  refine le_trans ?_ (Finset.single_le_sum (f := fun i : Fin 511 => z / (((510 : ℕ) : ℝ) + 1) *
    (1 / Ez (linspace 0 z 510 i.castSucc) Om w0 wa / (1 + linspace 0 z 510 i.castSucc)
      + 1 / Ez (linspace 0 z 510 i.succ) Om w0 wa / (1 + linspace 0 z 510 i.succ)) / 2)
    (fun i _ => ?_) (Finset.mem_univ (0 : Fin 511)))
  · have h1 := hp (0 : Fin 511).succ
    have e : linspace 0 z 510 (0 : Fin 511).castSucc = 0 := linspace_first z 510
    simp only [e, Ez_zero]
    have : 0 ≤ z / (((510 : ℕ) : ℝ) + 1) := by positivity
    have := mul_le_mul_of_nonneg_left h1.le this
    push_cast at this ⊢
    norm_num at this ⊢
    linarith
  · have h1 := hp i.castSucc
    have h2 := hp i.succ
    have : 0 ≤ z / (((510 : ℕ) : ℝ) + 1) := by positivity
    have := mul_nonneg this (add_pos h1 h2).le
    exact div_nonneg this (by norm_num)

theorem Ttrap_log {z Om0 w0 wa : ℝ} (hz : 0 ≤ z) (hO : PhysicalOm Om0) (hw : NonPhantom w0 wa) :
    Ttrap z Om0 w0 wa ≤ Real.log (1 + z) + (z / 1022) ^ 2 := by
  have h1 : Ttrap z Om0 w0 wa ≤ trapz (linspace 0 z 510) (fun i => 1 * Lv (linspace 0 z 510 i)) := by
    unfold Ttrap
    apply trapz_linspace_mono hz
    intro i
    have h0 := linspace_nonneg hz 510 i
    have h1 := one_le_Ez hO hw h0
    have h2 : 0 < 1 + linspace 0 z 510 i := by linarith
    rw [one_mul]; unfold Lv
    have : 1 / Ez (linspace 0 z 510 i) Om0 w0 wa ≤ 1 := by rw [div_le_one (by linarith)]; exact h1
    gcongr
  have hcont : ContinuousOn (fun z => 1 * Lv z) (Ici 0) := contOn_Ici (fun _ hx => mulv_deriv hx 1)
  have h2 := convex_unif_le hcont (mulv_convex zero_le_one) (fun t ht => mulv_deriv (by linarith) 1) hz 510
  have h3 : ∫ t in (0 : ℝ)..z, 1 * Lv t = Real.log (1 + z) := by
    have : ∀ x ∈ uIcc 0 z, HasDerivAt (fun x => Real.log (1 + x)) (1 * Lv x) x := by
      intro x hx
      rw [uIcc_of_le hz] at hx
      have := neglog_deriv (z := x) (by linarith [hx.1]) (-1)
      simpa using this
    rw [intervalIntegral.integral_eq_sub_of_hasDerivAt this (intInt hcont hz)]
    simp
  rw [h3] at h2
  have h4 : Lv 0 = 1 := by simp [Lv]
  rw [h4] at h2
  have h5 := Lv_pos (by linarith : -1 < z)
  have h6 : (z / (((510 : ℕ) : ℝ) + 1)) ^ 2 / 4 * (-1 * Lv z ^ 2 - -1 * 1 ^ 2) ≤ (z / (((510 : ℕ) : ℝ) + 1)) ^ 2 / 4 * 1 := by
    apply mul_le_mul_of_nonneg_left _ (by positivity)
    nlinarith
  have h7 : (z / (((510 : ℕ) : ℝ) + 1)) ^ 2 / 4 * 1 = (z / 1022) ^ 2 := by push_cast; ring
  linarith

end Dsps.Lemmas
