import Verif.Model.FlatWcdm
import Verif.Lemmas.Utils
import Verif.SpecCosmo

/-! Lemmas on the expansion rate and on trapezoid sums over uniform tables. -/
namespace Dsps.Lemmas
open Jnp Dsps.Utils Dsps.FlatWcdm Spec
open scoped BigOperators

variable {n : ℕ}

theorem rho_de_eq {z : ℝ} (hz : -1 < z) (w0 wa : ℝ) : rho_de_z z w0 wa = darkEnergyDensity w0 wa z := by
  have hu : 0 < 1 + z := by linarith
  unfold rho_de_z darkEnergyDensity
  norm_num
  rw [Real.inv_rpow hu.le, ← Real.rpow_neg hu.le]
  congr 1
  · congr 1; ring
  · congr 1; field_simp; ring

theorem de_pos {z : ℝ} (hz : -1 < z) (w0 wa : ℝ) : 0 < darkEnergyDensity w0 wa z := by
  have hu : 0 < 1 + z := by linarith
  unfold darkEnergyDensity; positivity

theorem friedmann_pos {z Om0 : ℝ} (hz : -1 < z) (hO : PhysicalOm Om0) (w0 wa : ℝ) :
    0 < friedmann Om0 w0 wa z := by
  have hu : 0 < (1 + z) ^ 3 := by have : 0 < 1 + z := by linarith
                                  positivity
  have hd := de_pos hz w0 wa
  unfold friedmann
  rcases hO with ⟨h0, h1⟩
  rcases eq_or_lt_of_le h1 with h | h
  · subst h; simpa using hu
  · have := mul_pos (sub_pos.2 h) hd
    have := mul_nonneg h0 hu.le
    linarith

theorem Ez_eq {z : ℝ} (hz : -1 < z) (Om0 w0 wa : ℝ) : Ez z Om0 w0 wa = Real.sqrt (friedmann Om0 w0 wa z) := by
  unfold Ez friedmann; rw [rho_de_eq hz]; norm_num

theorem Ez_sq {z Om0 : ℝ} (hz : -1 < z) (hO : PhysicalOm Om0) (w0 wa : ℝ) :
    Ez z Om0 w0 wa ^ 2 = friedmann Om0 w0 wa z := by
  rw [Ez_eq hz, Real.sq_sqrt (friedmann_pos hz hO w0 wa).le]

theorem Ez_pos {z Om0 : ℝ} (hz : -1 < z) (hO : PhysicalOm Om0) (w0 wa : ℝ) : 0 < Ez z Om0 w0 wa := by
  rw [Ez_eq hz]; exact Real.sqrt_pos.2 (friedmann_pos hz hO w0 wa)

theorem de_zero (w0 wa : ℝ) : darkEnergyDensity w0 wa 0 = 1 := by simp [darkEnergyDensity]

theorem friedmann_zero (Om0 w0 wa : ℝ) : friedmann Om0 w0 wa 0 = 1 := by
  simp [friedmann, de_zero]

theorem Ez_zero (Om0 w0 wa : ℝ) : Ez 0 Om0 w0 wa = 1 := by
  rw [Ez_eq (by norm_num), friedmann_zero, Real.sqrt_one]

/-- log-density of dark energy -/
theorem de_exp {z : ℝ} (hz : -1 < z) (w0 wa : ℝ) : darkEnergyDensity w0 wa z =
    Real.exp (3 * (1 + w0 + wa) * Real.log (1 + z) - 3 * wa * (1 - 1 / (1 + z))) := by
  have hu : 0 < 1 + z := by linarith
  unfold darkEnergyDensity
  rw [Real.rpow_def_of_pos hu, ← Real.exp_add]
  congr 1; field_simp; ring

/-- `A log u - B (1 - 1/u)` is monotone on `[1,∞)` if `A ≥ 0` and `A - B ≥ 0`. -/
theorem logmono {A B u v : ℝ} (hA : 0 ≤ A) (hB : 0 ≤ A - B) (hu : 1 ≤ u) (huv : u ≤ v) :
    A * Real.log u - B * (1 - 1 / u) ≤ A * Real.log v - B * (1 - 1 / v) := by
  have hu0 : 0 < u := by linarith
  have hv0 : 0 < v := by linarith
  have h1 : 1 - u / v ≤ Real.log v - Real.log u := by
    have := Real.one_sub_inv_le_log_of_pos (div_pos hv0 hu0)
    rw [Real.log_div hv0.ne' hu0.ne', inv_div] at this
    exact this
  have h2 : 1 / u - 1 / v ≤ 1 - u / v := by
    have : (1 - u / v) - (1 / u - 1 / v) = (v - u) * (u - 1) / (u * v) := by field_simp
    have h3 : 0 ≤ (v - u) * (u - 1) / (u * v) :=
      div_nonneg (mul_nonneg (by linarith) (by linarith)) (by positivity)
    linarith
  have h3 : 0 ≤ 1 / u - 1 / v := sub_nonneg.2 (one_div_le_one_div_of_le hu0 huv)
  nlinarith

theorem de_mono {w0 wa y z : ℝ} (hw : NonPhantom w0 wa) (hy : 0 ≤ y) (hyz : y ≤ z) :
    darkEnergyDensity w0 wa y ≤ darkEnergyDensity w0 wa z := by
  rw [de_exp (by linarith), de_exp (by linarith)]
  apply Real.exp_le_exp.2
  exact logmono (by linarith [hw.2]) (by linarith [hw.1]) (by linarith) (by linarith)

theorem de_div_cube {z : ℝ} (hz : -1 < z) (w0 wa : ℝ) : darkEnergyDensity w0 wa z / (1 + z) ^ 3 =
    Real.exp (3 * (w0 + wa) * Real.log (1 + z) - 3 * wa * (1 - 1 / (1 + z))) := by
  have hu : 0 < 1 + z := by linarith
  rw [de_exp hz]
  have : (1 + z) ^ 3 = Real.exp (3 * Real.log (1 + z)) := by
    rw [mul_comm, Real.exp_mul, Real.exp_log hu]; norm_cast
  rw [this, ← Real.exp_sub]; congr 1; ring

theorem de_div_anti {w0 wa y z : ℝ} (hw : NonStiff w0 wa) (hy : 0 ≤ y) (hyz : y ≤ z) :
    darkEnergyDensity w0 wa z / (1 + z) ^ 3 ≤ darkEnergyDensity w0 wa y / (1 + y) ^ 3 := by
  rw [de_div_cube (by linarith), de_div_cube (by linarith)]
  apply Real.exp_le_exp.2
  have := logmono (A := -(3 * (w0 + wa))) (B := -(3 * wa)) (u := 1 + y) (v := 1 + z)
    (by linarith [hw.2]) (by linarith [hw.1]) (by linarith) (by linarith)
  linarith

theorem friedmann_mono {Om0 w0 wa y z : ℝ} (hO : PhysicalOm Om0) (hw : NonPhantom w0 wa) (hy : 0 ≤ y)
    (hyz : y ≤ z) : friedmann Om0 w0 wa y ≤ friedmann Om0 w0 wa z := by
  unfold friedmann
  have h1 := mul_le_mul_of_nonneg_left (pow_le_pow_left₀ (by linarith : 0 ≤ 1 + y)
    (by linarith : 1 + y ≤ 1 + z) 3) hO.1
  have h2 := mul_le_mul_of_nonneg_left (de_mono hw hy hyz) (sub_nonneg.2 hO.2)
  linarith

theorem friedmann_div_anti {Om0 w0 wa y z : ℝ} (hO : PhysicalOm Om0) (hw : NonStiff w0 wa) (hy : 0 ≤ y)
    (hyz : y ≤ z) : friedmann Om0 w0 wa z / (1 + z) ^ 3 ≤ friedmann Om0 w0 wa y / (1 + y) ^ 3 := by
  have hy' : (1 + y) ^ 3 ≠ 0 := by have : 0 < 1 + y := by linarith
                                   positivity
  have hz' : (1 + z) ^ 3 ≠ 0 := by have : 0 < 1 + z := by linarith
                                   positivity
  unfold friedmann
  rw [add_div, add_div, mul_div_cancel_right₀ _ hy', mul_div_cancel_right₀ _ hz', mul_div_assoc, mul_div_assoc]
  have h2 := mul_le_mul_of_nonneg_left (de_div_anti hw hy hyz) (sub_nonneg.2 hO.2)
  linarith

theorem de_le_cube {w0 wa z : ℝ} (hw : NonStiff w0 wa) (hz : 0 ≤ z) :
    darkEnergyDensity w0 wa z ≤ (1 + z) ^ 3 := by
  have := de_div_anti hw le_rfl hz
  rw [de_zero, div_le_iff₀ (by have : 0 < 1 + z := by linarith
                               positivity)] at this
  simpa using this

theorem Ez_mono {Om0 w0 wa y z : ℝ} (hO : PhysicalOm Om0) (hw : NonPhantom w0 wa) (hy : 0 ≤ y)
    (hyz : y ≤ z) : Ez y Om0 w0 wa ≤ Ez z Om0 w0 wa := by
  rw [Ez_eq (by linarith), Ez_eq (by linarith)]
  exact Real.sqrt_le_sqrt (friedmann_mono hO hw hy hyz)

theorem one_le_Ez {Om0 w0 wa z : ℝ} (hO : PhysicalOm Om0) (hw : NonPhantom w0 wa) (hz : 0 ≤ z) :
    1 ≤ Ez z Om0 w0 wa := by
  rw [← Ez_zero Om0 w0 wa]; exact Ez_mono hO hw le_rfl hz

theorem Ez_mono_Om {Om0 Om1 w0 wa z : ℝ} (hOO : Om0 ≤ Om1) (hw : NonStiff w0 wa) (hz : 0 ≤ z) :
    Ez z Om0 w0 wa ≤ Ez z Om1 w0 wa := by
  rw [Ez_eq (by linarith), Ez_eq (by linarith)]
  apply Real.sqrt_le_sqrt
  unfold friedmann
  nlinarith [de_le_cube hw hz]

/-! ### trapezoid sums over uniform tables -/

theorem linspace_zero_eq (z : ℝ) (n : ℕ) (i : Fin (n + 2)) :
    linspace 0 z n i = z * ((i : ℕ) / ((n : ℝ) + 1)) := by
  unfold linspace
  split_ifs with h
  · subst h
    have : ((n : ℝ) + 1) ≠ 0 := by positivity
    simp [this]
  · ring

theorem linspace_nonneg {z : ℝ} (hz : 0 ≤ z) (n : ℕ) (i : Fin (n + 2)) : 0 ≤ linspace 0 z n i := by
  rw [linspace_zero_eq]; positivity

theorem linspace_le {z : ℝ} (hz : 0 ≤ z) (n : ℕ) (i : Fin (n + 2)) : linspace 0 z n i ≤ z := by
  rw [linspace_zero_eq]
  have : ((i : ℕ) : ℝ) / ((n : ℝ) + 1) ≤ 1 := by
    rw [div_le_one (by positivity)]
    have := i.2; norm_cast; omega
  exact mul_le_of_le_one_right hz this

theorem trapz_linspace (z : ℝ) (n : ℕ) (y : Fin (n + 2) → ℝ) :
    trapz (linspace 0 z n) y = ∑ i : Fin (n + 1), z / ((n : ℝ) + 1) * (y i.castSucc + y i.succ) / 2 := by
  rw [trapz_eq]
  apply Finset.sum_congr rfl
  intro i _
  rw [linspace_zero_eq, linspace_zero_eq]
  have : ((n : ℝ) + 1) ≠ 0 := by positivity
  simp only [Fin.val_succ, Fin.val_castSucc]
  push_cast
  field_simp
  ring

theorem trapz_linspace_pos {z : ℝ} (hz : 0 < z) (n : ℕ) {y : Fin (n + 2) → ℝ} (hy : ∀ i, 0 < y i) :
    0 < trapz (linspace 0 z n) y := by
  rw [trapz_linspace]
  apply Finset.sum_pos
  · intro i _
    have := hy i.castSucc
    have := hy i.succ
    positivity
  · exact Finset.univ_nonempty

theorem trapz_linspace_mono {z : ℝ} (hz : 0 ≤ z) (n : ℕ) {y y' : Fin (n + 2) → ℝ} (h : ∀ i, y i ≤ y' i) :
    trapz (linspace 0 z n) y ≤ trapz (linspace 0 z n) y' := by
  rw [trapz_linspace, trapz_linspace]
  apply Finset.sum_le_sum
  intro i _
  have h1 := h i.castSucc
  have h2 := h i.succ
  have : 0 ≤ z / ((n : ℝ) + 1) := by positivity
  have := mul_le_mul_of_nonneg_left (add_le_add h1 h2) this
  linarith

theorem trapz_linspace_const (z c : ℝ) (n : ℕ) : trapz (linspace 0 z n) (fun _ => c) = z * c := by
  rw [trapz_linspace]
  simp only [Finset.sum_const, Finset.card_univ, Fintype.card_fin, nsmul_eq_mul]
  have : ((n : ℝ) + 1) ≠ 0 := by positivity
  push_cast
  field_simp
  ring

/-- Comparison of two uniform tables over different intervals. -/
theorem trapz_linspace_lt {z z' : ℝ} (n : ℕ) {y y' : Fin (n + 2) → ℝ}
    (h : ∀ i, z * y i < z' * y' i) :
    trapz (linspace 0 z n) y < trapz (linspace 0 z' n) y' := by
  rw [trapz_linspace, trapz_linspace]
  apply Finset.sum_lt_sum_of_nonempty Finset.univ_nonempty
  intro i _
  have h1 := h i.castSucc
  have h2 := h i.succ
  have h3 : (z * y i.castSucc + z * y i.succ) / ((n : ℝ) + 1) / 2
      < (z' * y' i.castSucc + z' * y' i.succ) / ((n : ℝ) + 1) / 2 := by
    have : (0 : ℝ) < (n : ℝ) + 1 := by positivity
    gcongr
  calc _ = (z * y i.castSucc + z * y i.succ) / ((n : ℝ) + 1) / 2 := by ring
    _ < _ := h3
    _ = _ := by ring

/-! ### unfolding the distance functions -/

/-- Trapezoid approximation of `∫₀ᶻ dz'/E(z')` used by the code. -/
noncomputable def Dtrap (z Om0 w0 wa : ℝ) : ℝ :=
  trapz (linspace 0 z 254) (fun i => 1 / Ez (linspace 0 z 254 i) Om0 w0 wa)

theorem comoving_eq (z Om0 w0 wa h : ℝ) :
    comoving_distance_to_z z Om0 w0 wa h = Dtrap z Om0 w0 wa * (C_SPEED * 1e-5 / h) := by
  unfold comoving_distance_to_z Dtrap integrand_oneOverEz; ring

noncomputable def Ttrap (z Om0 w0 wa : ℝ) : ℝ :=
  trapz (linspace 0 z 510) (fun i => 1 / Ez (linspace 0 z 510 i) Om0 w0 wa / (1 + linspace 0 z 510 i))

noncomputable def Th (h : ℝ) : ℝ := 1e-16 * MPC / YEAR / h

theorem hubble_time_zero (Om0 w0 wa h : ℝ) : hubble_time 0.0 Om0 w0 wa h = Th h := by
  have : (0.0 : ℝ) = 0 := by norm_num
  unfold hubble_time Th; rw [this, Ez_zero]; norm_num

theorem lookback_eq (z Om0 w0 wa h : ℝ) :
    lookback_to_z z Om0 w0 wa h = Th h * Ttrap z Om0 w0 wa := by
  unfold lookback_to_z; rw [hubble_time_zero]; rfl

theorem Th_pos {h : ℝ} (hh : 0 < h) : 0 < Th h := by
  unfold Th MPC YEAR; positivity

theorem CK_pos {h : ℝ} (hh : 0 < h) : 0 < C_SPEED * 1e-5 / h := by
  unfold C_SPEED; positivity

theorem Dtrap_zero (Om0 w0 wa : ℝ) : Dtrap 0 Om0 w0 wa = 0 := by
  unfold Dtrap; rw [trapz_linspace]; simp

theorem Ttrap_zero (Om0 w0 wa : ℝ) : Ttrap 0 Om0 w0 wa = 0 := by
  unfold Ttrap; rw [trapz_linspace]; simp

theorem Dtrap_pos {z Om0 : ℝ} (hz : 0 < z) (hO : PhysicalOm Om0) (w0 wa : ℝ) : 0 < Dtrap z Om0 w0 wa := by
  unfold Dtrap
  apply trapz_linspace_pos hz
  intro i
  exact one_div_pos.2 (Ez_pos (by linarith [linspace_nonneg hz.le 254 i]) hO w0 wa)

theorem Ttrap_pos {z Om0 : ℝ} (hz : 0 < z) (hO : PhysicalOm Om0) (w0 wa : ℝ) : 0 < Ttrap z Om0 w0 wa := by
  unfold Ttrap
  apply trapz_linspace_pos hz
  intro i
  have := linspace_nonneg hz.le 510 i
  have h1 := Ez_pos (by linarith : -1 < linspace 0 z 510 i) hO w0 wa
  have h2 : 0 < 1 + linspace 0 z 510 i := by linarith
  positivity

theorem Dtrap_le {z Om0 w0 wa : ℝ} (hz : 0 ≤ z) (hO : PhysicalOm Om0) (hw : NonPhantom w0 wa) :
    Dtrap z Om0 w0 wa ≤ z := by
  unfold Dtrap
  refine (trapz_linspace_mono hz 254 (y' := fun _ => 1) fun i => ?_).trans_eq (by
    rw [trapz_linspace_const, mul_one])
  have h1 := one_le_Ez hO hw (linspace_nonneg hz 254 i)
  rw [div_le_one (by linarith)]; exact h1

theorem Ttrap_le {z Om0 w0 wa : ℝ} (hz : 0 ≤ z) (hO : PhysicalOm Om0) (hw : NonPhantom w0 wa) :
    Ttrap z Om0 w0 wa ≤ z := by
  unfold Ttrap
  refine (trapz_linspace_mono hz 510 (y' := fun _ => 1) fun i => ?_).trans_eq (by
    rw [trapz_linspace_const, mul_one])
  have h0 := linspace_nonneg hz 510 i
  have h1 := one_le_Ez hO hw h0
  rw [div_div, div_le_one (by nlinarith)]; nlinarith

/-- squared form of `E(z)/E(y) ≤ ((1+z)/(1+y))^{3/2}` -/
theorem Ez_ratio {Om0 w0 wa y z : ℝ} (hO : PhysicalOm Om0) (hw : NonStiff w0 wa) (hy : 0 ≤ y) (hyz : y ≤ z) :
    Ez z Om0 w0 wa ^ 2 * (1 + y) ^ 3 ≤ Ez y Om0 w0 wa ^ 2 * (1 + z) ^ 3 := by
  have h := friedmann_div_anti hO hw hy hyz
  rw [Ez_sq (by linarith) hO, Ez_sq (by linarith) hO]
  have : 0 < 1 + y := by linarith
  have : 0 < 1 + z := by linarith
  rwa [div_le_div_iff₀ (by positivity) (by positivity)] at h

/-- termwise comparison: `g z / E(z t)` increases when `g² ` beats `(1 + z t)³`. -/
theorem term_lt {Om0 w0 wa y z g g' : ℝ} (hO : PhysicalOm Om0) (hw : NonStiff w0 wa) (hy : 0 ≤ y) (hyz : y ≤ z)
    (hg : 0 < g) (hg' : 0 < g') (h : g ^ 2 * (1 + z) ^ 3 < g' ^ 2 * (1 + y) ^ 3) :
    g * (1 / Ez y Om0 w0 wa) < g' * (1 / Ez z Om0 w0 wa) := by
  have hEy := Ez_pos (by linarith : -1 < y) hO w0 wa
  have hEz := Ez_pos (by linarith : -1 < z) hO w0 wa
  have hr := Ez_ratio hO hw hy hyz
  rw [mul_one_div, mul_one_div, div_lt_div_iff₀ hEy hEz]
  apply lt_of_pow_lt_pow_left₀ 2 (by positivity)
  have h1 : 0 < (1 + y) ^ 3 := by have : 0 < 1 + y := by linarith
                                  positivity
  have h2 : 0 < (1 + z) ^ 3 := by have : 0 < 1 + z := by linarith
                                  positivity
  have e1 : (g * Ez z Om0 w0 wa) ^ 2 * (1 + y) ^ 3 ≤ g ^ 2 * (1 + z) ^ 3 * Ez y Om0 w0 wa ^ 2 := by
    have := mul_le_mul_of_nonneg_left hr (sq_nonneg g); nlinarith
  have e2 := mul_lt_mul_of_pos_right h (by positivity : 0 < Ez y Om0 w0 wa ^ 2)
  have e3 : (g * Ez z Om0 w0 wa) ^ 2 * (1 + y) ^ 3 < (g' * Ez y Om0 w0 wa) ^ 2 * (1 + y) ^ 3 := by
    calc _ ≤ _ := e1
      _ < _ := e2
      _ = _ := by ring
  exact lt_of_mul_lt_mul_right e3 h1.le

theorem lin_t (n : ℕ) (i : Fin (n + 2)) : (0 : ℝ) ≤ (i : ℕ) / ((n : ℝ) + 1) ∧ ((i : ℕ) : ℝ) / ((n : ℝ) + 1) ≤ 1 := by
  refine ⟨by positivity, ?_⟩
  rw [div_le_one (by positivity)]
  have := i.2; norm_cast; omega

/-- `(1+z) D(z)` strictly increases, for every `z ≥ 0`. -/
theorem Dlum_strictMono {Om0 w0 wa y z : ℝ} (hO : PhysicalOm Om0) (hw : NonStiff w0 wa) (hy : 0 ≤ y)
    (hyz : y < z) : Dtrap y Om0 w0 wa * (1 + y) < Dtrap z Om0 w0 wa * (1 + z) := by
  rcases eq_or_lt_of_le hy with h0 | hy0
  · subst h0
    rw [Dtrap_zero, zero_mul]
    exact mul_pos (Dtrap_pos hyz hO w0 wa) (by linarith)
  have key : trapz (linspace 0 y 254) (fun i => (1 + y) * (1 / Ez (linspace 0 y 254 i) Om0 w0 wa)) <
      trapz (linspace 0 z 254) (fun i => (1 + z) * (1 / Ez (linspace 0 z 254 i) Om0 w0 wa)) := by
    apply trapz_linspace_lt
    intro i
    have ht := lin_t 254 i
    rw [← mul_assoc, ← mul_assoc]
    rw [linspace_zero_eq, linspace_zero_eq]
    generalize ((i : ℕ) : ℝ) / (((254 : ℕ) : ℝ) + 1) = t at ht
    obtain ⟨t0, t1⟩ := ht
    apply term_lt hO hw (by positivity) (by gcongr) (by positivity) (mul_pos (by linarith) (by linarith))
    have hz0 : 0 < z := by linarith
    -- (1+zt)(1+y) ≤ (1+yt)(1+z) and y (1+z) ≤ z (1+y)
    have a1 : (1 + z * t) * (1 + y) ≤ (1 + y * t) * (1 + z) := by nlinarith
    have a2 : y * (1 + z) < z * (1 + y) := by nlinarith
    have b1 : ((1 + z * t) * (1 + y)) ^ 3 ≤ ((1 + y * t) * (1 + z)) ^ 3 :=
      pow_le_pow_left₀ (by positivity) a1 3
    have c1 : (y * (1 + y)) ^ 2 * (1 + z) ^ 3 < (z * (1 + z)) ^ 2 * (1 + y) ^ 3 := by
      have e : y ^ 2 * (1 + z) < z ^ 2 * (1 + y) := by
        nlinarith [mul_pos (sub_pos.2 hyz) (by positivity : 0 < z + y + y * z)]
      have : 0 < ((1 + y) * (1 + z)) ^ 2 := by positivity
      have := mul_lt_mul_of_pos_left e this
      nlinarith
    have d1 : (y * (1 + y)) ^ 2 * ((1 + z * t) * (1 + y)) ^ 3 ≤ (y * (1 + y)) ^ 2 * ((1 + y * t) * (1 + z)) ^ 3 :=
      mul_le_mul_of_nonneg_left b1 (by positivity)
    have d2 : (y * (1 + y)) ^ 2 * (1 + z) ^ 3 * (1 + y * t) ^ 3 < (z * (1 + z)) ^ 2 * (1 + y) ^ 3 * (1 + y * t) ^ 3 :=
      mul_lt_mul_of_pos_right c1 (by positivity)
    have d3 : ((y * (1 + y)) ^ 2 * (1 + z * t) ^ 3) * (1 + y) ^ 3
        < ((z * (1 + z)) ^ 2 * (1 + y * t) ^ 3) * (1 + y) ^ 3 := by
      calc _ = (y * (1 + y)) ^ 2 * ((1 + z * t) * (1 + y)) ^ 3 := by ring
        _ ≤ _ := d1
        _ = (y * (1 + y)) ^ 2 * (1 + z) ^ 3 * (1 + y * t) ^ 3 := by ring
        _ < _ := d2
        _ = _ := by ring
    exact lt_of_mul_lt_mul_right d3 (by positivity)
  rw [trapz_linspace, trapz_linspace] at key
  unfold Dtrap
  rw [trapz_linspace, trapz_linspace, Finset.sum_mul, Finset.sum_mul]
  calc _ = _ := Finset.sum_congr rfl fun i _ => by ring
    _ < _ := key
    _ = _ := Finset.sum_congr rfl fun i _ => by ring

/-- `D` strictly increases up to `z = 2`, for every non-stiff dark energy. -/
theorem Dtrap_strictMono {Om0 w0 wa y z : ℝ} (hO : PhysicalOm Om0) (hw : NonStiff w0 wa) (hy : 0 ≤ y)
    (hyz : y < z) (hz2 : z ≤ 2) : Dtrap y Om0 w0 wa < Dtrap z Om0 w0 wa := by
  rcases eq_or_lt_of_le hy with h0 | hy0
  · subst h0; rw [Dtrap_zero]; exact Dtrap_pos hyz hO w0 wa
  unfold Dtrap
  apply trapz_linspace_lt
  intro i
  have ht := lin_t 254 i
  rw [linspace_zero_eq, linspace_zero_eq]
  generalize ((i : ℕ) : ℝ) / (((254 : ℕ) : ℝ) + 1) = t at ht
  obtain ⟨t0, t1⟩ := ht
  apply term_lt hO hw (by positivity) (by gcongr) hy0 (by linarith)
  have hz0 : 0 < z := by linarith
  have e : z ^ 2 * (1 + y * t) ^ 3 - y ^ 2 * (1 + z * t) ^ 3
      = (z - y) * ((y + z) + 3 * (y * z * t) - y ^ 2 * z ^ 2 * t ^ 3) := by ring
  have p1 : 0 ≤ y * z * t := by positivity
  have q1 : y * t ≤ 2 := by nlinarith
  have q2 : z * t ≤ 2 := by nlinarith
  have p2 : y * t * (z * t) ≤ 4 := by
    calc _ ≤ (2 : ℝ) * 2 := mul_le_mul q1 q2 (by positivity) (by norm_num)
      _ = 4 := by norm_num
  have p3 : y ^ 2 * z ^ 2 * t ^ 3 ≤ 4 * (y * z * t) := by
    calc _ = (y * t * (z * t)) * (y * z * t) := by ring
      _ ≤ _ := mul_le_mul_of_nonneg_right p2 p1
  have p4 : y * z * t ≤ 2 * y := by nlinarith
  have : 0 < (y + z) + 3 * (y * z * t) - y ^ 2 * z ^ 2 * t ^ 3 := by nlinarith
  nlinarith [mul_pos (sub_pos.2 hyz) this]

theorem Dtrap_anti_Om {Om0 Om1 w0 wa z : ℝ} (hO : PhysicalOm Om0) (hO1 : PhysicalOm Om1) (hOO : Om0 ≤ Om1)
    (hw : NonStiff w0 wa) (hz : 0 ≤ z) : Dtrap z Om1 w0 wa ≤ Dtrap z Om0 w0 wa := by
  unfold Dtrap
  apply trapz_linspace_mono hz
  intro i
  have h0 := linspace_nonneg hz 254 i
  exact one_div_le_one_div_of_le (Ez_pos (by linarith) hO w0 wa) (Ez_mono_Om hOO hw h0)

theorem Ttrap_anti_Om {Om0 Om1 w0 wa z : ℝ} (hO : PhysicalOm Om0) (hO1 : PhysicalOm Om1) (hOO : Om0 ≤ Om1)
    (hw : NonStiff w0 wa) (hz : 0 ≤ z) : Ttrap z Om1 w0 wa ≤ Ttrap z Om0 w0 wa := by
  unfold Ttrap
  apply trapz_linspace_mono hz
  intro i
  have h0 := linspace_nonneg hz 510 i
  have := one_div_le_one_div_of_le (Ez_pos (by linarith) hO w0 wa) (Ez_mono_Om hOO hw h0)
  have h1 : 0 < 1 + linspace 0 z 510 i := by linarith
  gcongr

end Dsps.Lemmas
