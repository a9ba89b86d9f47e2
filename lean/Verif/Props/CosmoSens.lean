import Verif.Props.CosmoW0wa
import Verif.Props.Photometry

/-! C154: how much distances, times and observed magnitudes change when the cosmological parameters or the redshift change. -/
namespace Dsps.Props
open Jnp Dsps.Utils Dsps.FlatWcdm Dsps.Lemmas Spec

section transfer
variable {z κ Om0 Om1 w0 w0' wa wa' h h' : ℝ}

lemma quad_le {n : ℕ} {x : Fin (n + 2) → ℝ} (hx : Monotone x) {f g : Fin (n + 2) → ℝ} (h : ∀ i, f i ≤ κ * g i) : trapz x f ≤ κ * trapz x g := by
  rw [← trapz_smul]
  exact trapz_mono hx h

lemma lin_mono {z : ℝ} (hz : 0 ≤ z) (n : ℕ) : Monotone (linspace 0 z n) := fun i j hij => by
  rw [linspace_zero_eq, linspace_zero_eq]
  have : ((i : ℕ) : ℝ) ≤ (j : ℕ) := by exact_mod_cast hij
  gcongr

lemma inv_rate (hO : PhysicalOm Om0) (hO1 : PhysicalOm Om1) {y : ℝ} (hy : 0 ≤ y) (h : Ez y Om0 w0 wa ≤ κ * Ez y Om1 w0' wa') :
    1 / Ez y Om1 w0' wa' ≤ κ * (1 / Ez y Om0 w0 wa) := by
  have p := Ez_pos (by linarith : -1 < y) hO w0 wa
  have p' := Ez_pos (by linarith : -1 < y) hO1 w0' wa'
  rw [mul_one_div, div_le_div_iff₀ p' p, one_mul]
  exact h

/-- C154: **expansion rate.** If out to redshift `z` one universe expands at most `κ` times as fast as another one, all distances and the lookback time at `z`
in the other one are at most `κ` times those in the first; if this holds throughout the range of the age integral (to `z = 999`), so for the age today. -/
theorem C154_expansion_rate (hO : PhysicalOm Om0) (hO1 : PhysicalOm Om1) (hh : 0 < h) (hz : 0 ≤ z)
    (H : ∀ y, 0 ≤ y → y ≤ z → Ez y Om0 w0 wa ≤ κ * Ez y Om1 w0' wa') :
    comoving_distance_to_z z Om1 w0' wa' h ≤ κ * comoving_distance_to_z z Om0 w0 wa h ∧
    luminosity_distance_to_z z Om1 w0' wa' h ≤ κ * luminosity_distance_to_z z Om0 w0 wa h ∧
    angular_diameter_distance_to_z z Om1 w0' wa' h ≤ κ * angular_diameter_distance_to_z z Om0 w0 wa h ∧
    lookback_to_z z Om1 w0' wa' h ≤ κ * lookback_to_z z Om0 w0 wa h ∧
    (999 ≤ z → age_at_z0 Om1 w0' wa' h ≤ κ * age_at_z0 Om0 w0 wa h) := by
  have h1 : comoving_distance_to_z z Om1 w0' wa' h ≤ κ * comoving_distance_to_z z Om0 w0 wa h := by
    rw [comoving_eq, comoving_eq, ← mul_assoc]
    refine mul_le_mul_of_nonneg_right ?_ (CK_pos hh).le
    exact quad_le (lin_mono hz 254) fun i => inv_rate hO hO1 (linspace_nonneg hz 254 i) (H _ (linspace_nonneg hz 254 i) (linspace_le hz 254 i))
  refine ⟨h1, ?_, ?_, ?_, fun h9 => ?_⟩
  · unfold luminosity_distance_to_z
    rw [← mul_assoc]
    exact mul_le_mul_of_nonneg_right h1 (by linarith)
  · unfold angular_diameter_distance_to_z
    rw [← mul_div_assoc]
    exact div_le_div_of_nonneg_right h1 (by linarith)
  · rw [lookback_eq, lookback_eq, mul_left_comm]
    refine mul_le_mul_of_nonneg_left ?_ (Th_pos hh).le
    refine quad_le (lin_mono hz 510) fun i => ?_
    have h0 := linspace_nonneg hz 510 i
    rw [← mul_div_assoc]
    exact div_le_div_of_nonneg_right (inv_rate hO hO1 h0 (H _ h0 (linspace_le hz 510 i))) (by linarith)
  · rw [age0_eq, age0_eq, mul_left_comm]
    refine mul_le_mul_of_nonneg_left ?_ (Th_pos hh).le
    refine quad_le agrid_mono.monotone fun i => ?_
    have h0 := agrid_nonneg i
    have h2 : agrid i ≤ z := by
      have := agrid_mono.monotone (Fin.le_last i)
      rw [agrid_last] at this
      exact this.trans h9
    rw [← mul_div_assoc]
    exact div_le_div_of_nonneg_right (inv_rate hO hO1 h0 (H _ h0 h2)) (by linarith)

lemma rate_sq {y c : ℝ} (hy : 0 ≤ y) (hc : 0 ≤ c) (h : friedmann Om0 w0 wa y ≤ c * friedmann Om1 w0' wa' y) :
    Ez y Om0 w0 wa ≤ Real.sqrt c * Ez y Om1 w0' wa' := by
  rw [Ez_eq (by linarith), Ez_eq (by linarith), ← Real.sqrt_mul hc]
  exact Real.sqrt_le_sqrt h

lemma friedmann_matter {y : ℝ} (hy : 0 ≤ y) (h0 : 0 < Om0) (h01 : Om0 ≤ Om1) :
    friedmann Om1 w0 wa y ≤ Om1 / Om0 * friedmann Om0 w0 wa y := by
  have d := de_pos (by linarith : -1 < y) w0 wa
  unfold friedmann
  rw [div_mul_eq_mul_div, le_div_iff₀ h0]
  nlinarith [mul_nonneg (sub_nonneg.2 h01) d.le]

/-- C154: **matter density.** Raising the matter density from `Om0` to `Om1` lowers distances and times, by at most the factor `sqrt (Om0/Om1)`. -/
theorem C154_matter (h0 : 0 < Om0) (h01 : Om0 ≤ Om1) (h1 : Om1 ≤ 1) (hs : NonStiff w0 wa) (hh : 0 < h) (hz : 0 ≤ z) :
    (Real.sqrt (Om0 / Om1) * comoving_distance_to_z z Om0 w0 wa h ≤ comoving_distance_to_z z Om1 w0 wa h ∧
      comoving_distance_to_z z Om1 w0 wa h ≤ comoving_distance_to_z z Om0 w0 wa h) ∧
    (Real.sqrt (Om0 / Om1) * luminosity_distance_to_z z Om0 w0 wa h ≤ luminosity_distance_to_z z Om1 w0 wa h ∧
      luminosity_distance_to_z z Om1 w0 wa h ≤ luminosity_distance_to_z z Om0 w0 wa h) ∧
    (Real.sqrt (Om0 / Om1) * lookback_to_z z Om0 w0 wa h ≤ lookback_to_z z Om1 w0 wa h ∧ lookback_to_z z Om1 w0 wa h ≤ lookback_to_z z Om0 w0 wa h) ∧
    (Real.sqrt (Om0 / Om1) * age_at_z0 Om0 w0 wa h ≤ age_at_z0 Om1 w0 wa h ∧ age_at_z0 Om1 w0 wa h ≤ age_at_z0 Om0 w0 wa h) := by
  have O0 : PhysicalOm Om0 := ⟨h0.le, h01.trans h1⟩
  have O1 : PhysicalOm Om1 := ⟨h0.le.trans h01, h1⟩
  have p1 : 0 < Om1 := h0.trans_le h01
  have up := C50_decreasing_in_matter (w0 := w0) (wa := wa) (z := z) (h := h) hz O0 O1 h01 hs hh
  have H : ∀ y, 0 ≤ y → Ez y Om1 w0 wa ≤ Real.sqrt (Om1 / Om0) * Ez y Om0 w0 wa := fun y hy =>
    rate_sq hy (by positivity) (friedmann_matter hy h0 h01)
  have e : Real.sqrt (Om1 / Om0) = (Real.sqrt (Om0 / Om1))⁻¹ := by rw [← Real.sqrt_inv, inv_div]
  have q : 0 < Real.sqrt (Om0 / Om1) := Real.sqrt_pos.2 (by positivity)
  rw [e] at H
  have d := C154_expansion_rate (h := h) O1 O0 hh hz fun y hy _ => H y hy
  have d9 := (C154_expansion_rate (h := h) (z := 999) O1 O0 hh (by norm_num) fun y hy _ => H y hy).2.2.2.2 le_rfl
  simp only [le_inv_mul_iff₀ q] at d d9
  exact ⟨⟨d.1, up.1⟩, ⟨d.2.1, up.2.1⟩, ⟨d.2.2.2.1, up.2.2.1⟩, ⟨d9, up.2.2.2⟩⟩

/-- how much the logarithm of the dark energy density at redshift `z` can change when `w0` and `wa` change by `dw0` and `dwa` -/
noncomputable def darkEnergyShift (z dw0 dwa : ℝ) : ℝ := 3 * |dw0| * Real.log (1 + z) + 3 * |dwa| * (Real.log (1 + z) - z / (1 + z))

lemma log_excess {y : ℝ} (hy : 0 ≤ y) : 0 ≤ Real.log (1 + y) - y / (1 + y) := by
  have := Real.one_sub_inv_le_log_of_pos (by linarith : 0 < 1 + y)
  have e : y / (1 + y) = 1 - (1 + y)⁻¹ := by field_simp; ring
  rw [e]; linarith

lemma shift_mono {y z a b : ℝ} (hy : 0 ≤ y) (hyz : y ≤ z) : darkEnergyShift y a b ≤ darkEnergyShift z a b := by
  have l : Real.log (1 + y) ≤ Real.log (1 + z) := Real.log_le_log (by linarith) (by linarith)
  have m := logmono (A := 1) (B := 1) (by norm_num) (by norm_num) (by linarith : 1 ≤ 1 + y) (by linarith : 1 + y ≤ 1 + z)
  have e : ∀ x : ℝ, 0 ≤ x → x / (1 + x) = 1 - 1 / (1 + x) := fun x hx => by field_simp; ring
  unfold darkEnergyShift
  rw [e y hy, e z (hy.trans hyz)]
  have m' : Real.log (1 + y) - (1 - 1 / (1 + y)) ≤ Real.log (1 + z) - (1 - 1 / (1 + z)) := by linarith
  gcongr

lemma de_shift {y : ℝ} (hy : 0 ≤ y) : darkEnergyDensity w0 wa y ≤ Real.exp (darkEnergyShift y (w0' - w0) (wa' - wa)) * darkEnergyDensity w0' wa' y := by
  rw [de_exp (by linarith), de_exp (by linarith), ← Real.exp_add]
  apply Real.exp_le_exp.2
  have l0 : 0 ≤ Real.log (1 + y) := Real.log_nonneg (by linarith)
  have e : y / (1 + y) = 1 - 1 / (1 + y) := by field_simp; ring
  have x0 := log_excess hy
  unfold darkEnergyShift
  rw [e] at x0 ⊢
  have a1 := mul_le_mul_of_nonneg_right (neg_le_abs (w0' - w0)) l0
  have a2 := mul_le_mul_of_nonneg_right (neg_le_abs (wa' - wa)) x0
  nlinarith

lemma shift_nonneg {y a b : ℝ} (hy : 0 ≤ y) : 0 ≤ darkEnergyShift y a b := by
  have l0 : 0 ≤ Real.log (1 + y) := Real.log_nonneg (by linarith)
  have x0 := log_excess hy
  unfold darkEnergyShift
  positivity

lemma friedmann_shift {y : ℝ} (hO : PhysicalOm Om0) (hy : 0 ≤ y) :
    friedmann Om0 w0 wa y ≤ Real.exp (darkEnergyShift y (w0' - w0) (wa' - wa)) * friedmann Om0 w0' wa' y := by
  have d := de_shift (w0 := w0) (wa := wa) (w0' := w0') (wa' := wa') hy
  have e1 : 1 ≤ Real.exp (darkEnergyShift y (w0' - w0) (wa' - wa)) := Real.one_le_exp (shift_nonneg hy)
  have m : 0 ≤ Om0 * (1 + y) ^ 3 := mul_nonneg hO.1 (by positivity)
  have o := mul_le_mul_of_nonneg_left d (sub_nonneg.2 hO.2)
  unfold friedmann
  nlinarith

lemma rate_shift (hO : PhysicalOm Om0) {y : ℝ} (hy : 0 ≤ y) (hyz : y ≤ z) :
    Ez y Om0 w0 wa ≤ Real.exp (darkEnergyShift z (w0' - w0) (wa' - wa) / 2) * Ez y Om0 w0' wa' := by
  have h1 := rate_sq (Om0 := Om0) (Om1 := Om0) hy (Real.exp_pos _).le (friedmann_shift (w0 := w0) (wa := wa) (w0' := w0') (wa' := wa') hO hy)
  have e : Real.sqrt (Real.exp (darkEnergyShift y (w0' - w0) (wa' - wa))) = Real.exp (darkEnergyShift y (w0' - w0) (wa' - wa) / 2) := by
    rw [Real.exp_half]
  rw [e] at h1
  refine h1.trans (mul_le_mul_of_nonneg_right (Real.exp_le_exp.2 ?_) (Ez_pos (by linarith) hO _ _).le)
  have := shift_mono (a := w0' - w0) (b := wa' - wa) hy hyz
  linarith

/-- C154: **dark energy.** Changing `w0` and `wa` changes distances and lookback time by at most a factor `exp (darkEnergyShift z Δw0 Δwa / 2)`, up or down;
and dark energy with the larger equation of state at all times makes all of them smaller. -/
theorem C154_dark_energy (hO : PhysicalOm Om0) (hh : 0 < h) (hz : 0 ≤ z) :
    let κ := Real.exp (darkEnergyShift z (w0' - w0) (wa' - wa) / 2)
    (comoving_distance_to_z z Om0 w0' wa' h ≤ κ * comoving_distance_to_z z Om0 w0 wa h ∧
      luminosity_distance_to_z z Om0 w0' wa' h ≤ κ * luminosity_distance_to_z z Om0 w0 wa h ∧
      angular_diameter_distance_to_z z Om0 w0' wa' h ≤ κ * angular_diameter_distance_to_z z Om0 w0 wa h ∧
      lookback_to_z z Om0 w0' wa' h ≤ κ * lookback_to_z z Om0 w0 wa h) ∧
    (w0 ≤ w0' → w0 + wa ≤ w0' + wa' →
      comoving_distance_to_z z Om0 w0' wa' h ≤ comoving_distance_to_z z Om0 w0 wa h ∧
      luminosity_distance_to_z z Om0 w0' wa' h ≤ luminosity_distance_to_z z Om0 w0 wa h ∧
      lookback_to_z z Om0 w0' wa' h ≤ lookback_to_z z Om0 w0 wa h ∧ age_at_z0 Om0 w0' wa' h ≤ age_at_z0 Om0 w0 wa h) := by
  intro κ
  constructor
  · have := C154_expansion_rate (h := h) hO hO hh hz fun y hy hyz => rate_shift (w0 := w0) (wa := wa) (w0' := w0') (wa' := wa') hO hy hyz
    exact ⟨this.1, this.2.1, this.2.2.1, this.2.2.2.1⟩
  · intro a1 a2
    have H : ∀ y, 0 ≤ y → Ez y Om0 w0 wa ≤ 1 * Ez y Om0 w0' wa' := fun y hy => by
      rw [one_mul, Ez_eq (by linarith), Ez_eq (by linarith)]
      apply Real.sqrt_le_sqrt
      unfold friedmann
      refine add_le_add le_rfl (mul_le_mul_of_nonneg_left ?_ (sub_nonneg.2 hO.2))
      rw [de_exp (by linarith), de_exp (by linarith)]
      apply Real.exp_le_exp.2
      have m := logmono (A := 3 * (w0' + wa' - (w0 + wa))) (B := 3 * (wa' - wa)) (by linarith) (by linarith) le_rfl (by linarith : 1 ≤ 1 + y)
      simp only [Real.log_one, div_one, sub_self, mul_zero] at m
      linarith
    have d := C154_expansion_rate (h := h) hO hO hh hz fun y hy _ => H y hy
    have d9 := (C154_expansion_rate (h := h) (z := 999) hO hO hh (by norm_num) fun y hy _ => H y hy).2.2.2.2 le_rfl
    simp only [one_mul] at d d9
    exact ⟨d.1, d.2.1, d.2.2.2.1, d9⟩

end transfer

section modulus
variable {z y Om0 Om1 w0 w0' wa wa' h h' κ : ℝ}

lemma modulus_le {z' Om1 w0' wa' h' : ℝ} (h1 : 0 < luminosity_distance_to_z z' Om1 w0' wa' h') (h0 : 0 < luminosity_distance_to_z z Om0 w0 wa h) (hκ : 0 < κ)
    (H : luminosity_distance_to_z z' Om1 w0' wa' h' ≤ κ * luminosity_distance_to_z z Om0 w0 wa h) :
    distance_modulus_to_z z' Om1 w0' wa' h' ≤ distance_modulus_to_z z Om0 w0 wa h + 5 * Real.logb 10 κ := by
  have e : ∀ x : ℝ, 0 < x → Real.logb 10 (x * 1e5) = Real.logb 10 x + 5 := fun x hx => by
    rw [Real.logb_mul hx.ne' (by norm_num), show (1e5 : ℝ) = 10 ^ (5 : ℝ) by norm_num, Real.logb_rpow (by norm_num) (by norm_num)]
  have := Real.logb_le_logb_of_le (by norm_num : (1:ℝ) < 10) h1 H
  rw [Real.logb_mul hκ.ne' h0.ne'] at this
  show 5.0 * Real.logb 10 _ ≤ 5.0 * Real.logb 10 _ + _
  rw [e _ h1, e _ h0]
  norm_num
  linarith

lemma modulus_h (hh : 0 < h) (hh' : 0 < h') (hz : 0 < z) (hO : PhysicalOm Om0) :
    distance_modulus_to_z z Om0 w0 wa h' = distance_modulus_to_z z Om0 w0 wa h - 5 * Real.logb 10 (h' / h) := by
  have L := (C49_positive hz hO hh w0 wa).2.1
  have L' := (C49_positive hz hO hh' w0 wa).2.1
  have e : luminosity_distance_to_z z Om0 w0 wa h' = (h' / h)⁻¹ * luminosity_distance_to_z z Om0 w0 wa h := by
    unfold luminosity_distance_to_z
    rw [comoving_eq, comoving_eq]
    field_simp
  have u := modulus_le L' L (by positivity) e.le
  have e' : luminosity_distance_to_z z Om0 w0 wa h = (h' / h) * luminosity_distance_to_z z Om0 w0 wa h' := by
    rw [e, mul_inv_cancel_left₀ (by positivity)]
  have v := modulus_le L L' (by positivity) e'.le
  rw [Real.logb_inv] at u
  linarith

lemma modulus_matter (h0 : 0 < Om0) (h1 : Om0 ≤ 1) (h0' : 0 < Om1) (h1' : Om1 ≤ 1) (hs : NonStiff w0 wa) (hh : 0 < h) (hz : 0 < z) :
    |distance_modulus_to_z z Om1 w0 wa h - distance_modulus_to_z z Om0 w0 wa h| ≤ 2.5 * |Real.logb 10 (Om1 / Om0)| := by
  wlog H : Om0 ≤ Om1 generalizing Om0 Om1
  · have := this h0' h1' h0 h1 (not_le.1 H).le
    rw [abs_sub_comm, ← abs_neg (Real.logb 10 (Om1 / Om0)), ← Real.logb_inv, inv_div]
    exact this
  have M := (C154_matter (h := h) h0 H h1' hs hh hz.le).2.1
  have L := (C49_positive hz ⟨h0.le, h1⟩ hh w0 wa).2.1
  have L' := (C49_positive hz ⟨h0'.le, h1'⟩ hh w0 wa).2.1
  have q : 0 < Real.sqrt (Om0 / Om1) := Real.sqrt_pos.2 (by positivity)
  have u := modulus_le L' L one_pos (by rw [one_mul]; exact M.2)
  have v := modulus_le (κ := (Real.sqrt (Om0 / Om1))⁻¹) L L' (inv_pos.2 q) (by rw [le_inv_mul_iff₀ q]; exact M.1)
  rw [Real.logb_one] at u
  have e : Real.logb 10 (Real.sqrt (Om0 / Om1))⁻¹ = Real.logb 10 (Om1 / Om0) / 2 := by
    rw [← Real.sqrt_inv, inv_div, Real.sqrt_eq_rpow, Real.logb_rpow_eq_mul_logb_of_pos (by positivity)]; ring
  rw [e] at v
  have p : 0 ≤ Real.logb 10 (Om1 / Om0) := Real.logb_nonneg (by norm_num) ((one_le_div h0).2 H)
  rw [abs_of_nonneg p, abs_le]
  norm_num
  constructor <;> linarith

lemma modulus_dark (hO : PhysicalOm Om0) (hh : 0 < h) (hz : 0 < z) :
    |distance_modulus_to_z z Om0 w0' wa' h - distance_modulus_to_z z Om0 w0 wa h| ≤ 2.5 / Real.log 10 * darkEnergyShift z (w0' - w0) (wa' - wa) := by
  have L := (C49_positive hz hO hh w0 wa).2.1
  have L' := (C49_positive hz hO hh w0' wa').2.1
  have u := modulus_le L' L (Real.exp_pos _) (C154_dark_energy (w0 := w0) (wa := wa) (w0' := w0') (wa' := wa') hO hh hz.le).1.2.1
  have v := modulus_le L L' (Real.exp_pos _) (C154_dark_energy (w0 := w0') (wa := wa') (w0' := w0) (wa' := wa) hO hh hz.le).1.2.1
  have s : darkEnergyShift z (w0 - w0') (wa - wa') = darkEnergyShift z (w0' - w0) (wa' - wa) := by
    unfold darkEnergyShift; rw [abs_sub_comm, abs_sub_comm wa]
  rw [s] at v
  simp only [Real.logb, Real.log_exp] at u v
  rw [abs_le]
  have e : 5 * (darkEnergyShift z (w0' - w0) (wa' - wa) / 2 / Real.log 10) = 2.5 / Real.log 10 * darkEnergyShift z (w0' - w0) (wa' - wa) := by
    norm_num; ring
  rw [e] at u v
  constructor <;> linarith

/-- C154: **distance modulus.** Changing all four parameters at once changes the distance modulus by at most the sum of `2.5 |log10 (Ωm'/Ωm)|`,
`2.5/ln 10` times the shift of the dark energy, and `5 |log10 (h'/h)|`. -/
theorem C154_modulus (h0 : 0 < Om0) (h1 : Om0 ≤ 1) (h0' : 0 < Om1) (h1' : Om1 ≤ 1) (hs : NonStiff w0 wa) (hh : 0 < h) (hh' : 0 < h') (hz : 0 < z) :
    |distance_modulus_to_z z Om1 w0' wa' h' - distance_modulus_to_z z Om0 w0 wa h| ≤
      2.5 * |Real.logb 10 (Om1 / Om0)| + 2.5 / Real.log 10 * darkEnergyShift z (w0' - w0) (wa' - wa) + 5 * |Real.logb 10 (h' / h)| := by
  have a := modulus_matter (z := z) h0 h1 h0' h1' hs hh hz
  have b := modulus_dark (z := z) (Om0 := Om1) (w0 := w0) (wa := wa) (w0' := w0') (wa' := wa') ⟨h0'.le, h1'⟩ hh hz
  have c := modulus_h (z := z) (w0 := w0') (wa := wa') hh hh' hz (Om0 := Om1) ⟨h0'.le, h1'⟩
  rw [c]
  have d : |-(5 * Real.logb 10 (h' / h))| ≤ 5 * |Real.logb 10 (h' / h)| := by rw [abs_neg, abs_mul]; norm_num
  rw [abs_le] at a b d ⊢
  constructor <;> linarith

/-- C154: **redshift.** Moving a source from `y` to a larger redshift `z` makes it more distant, the luminosity distance growing by at most the factor
`z (1 + z) / (y (1 + y))`; the lookback time grows by at most `z/y`. -/
theorem C154_redshift (hO : PhysicalOm Om0) (hp : NonPhantom w0 wa) (hs : NonStiff w0 wa) (hh : 0 < h) (hy : 0 < y) (hyz : y ≤ z) :
    (luminosity_distance_to_z y Om0 w0 wa h ≤ luminosity_distance_to_z z Om0 w0 wa h ∧
      luminosity_distance_to_z z Om0 w0 wa h ≤ z * (1 + z) / (y * (1 + y)) * luminosity_distance_to_z y Om0 w0 wa h) ∧
    lookback_to_z z Om0 w0 wa h ≤ z / y * lookback_to_z y Om0 w0 wa h ∧
    (distance_modulus_to_z y Om0 w0 wa h ≤ distance_modulus_to_z z Om0 w0 wa h ∧
      distance_modulus_to_z z Om0 w0 wa h ≤ distance_modulus_to_z y Om0 w0 wa h + 5 * Real.logb 10 (z * (1 + z) / (y * (1 + y)))) := by
  have hz : 0 < z := hy.trans_le hyz
  have up : luminosity_distance_to_z y Om0 w0 wa h ≤ luminosity_distance_to_z z Om0 w0 wa h := by
    rcases hyz.eq_or_lt with e | e
    · rw [e]
    · exact (C50_luminosity_increasing hO hs hh hy.le e).le
  have D : Dtrap z Om0 w0 wa ≤ z / y * Dtrap y Om0 w0 wa := by
    unfold Dtrap
    rw [trapz_linspace, trapz_linspace, Finset.mul_sum]
    refine Finset.sum_le_sum fun i _ => ?_
    have t : ∀ i, 1 / Ez (linspace 0 z 254 i) Om0 w0 wa ≤ 1 / Ez (linspace 0 y 254 i) Om0 w0 wa := fun i => by
      have a := linspace_nonneg hy.le 254 i
      have b : linspace 0 y 254 i ≤ linspace 0 z 254 i := by rw [linspace_zero_eq, linspace_zero_eq]; gcongr
      exact one_div_le_one_div_of_le (Ez_pos (by linarith) hO _ _) (Ez_mono hO hp a b)
    have := mul_le_mul_of_nonneg_left (add_le_add (t i.castSucc) (t i.succ)) (by positivity : 0 ≤ z / (((254 : ℕ) : ℝ) + 1) / 2)
    calc _ = z / (((254 : ℕ) : ℝ) + 1) / 2 * _ := by ring
      _ ≤ _ := this
      _ = _ := by field_simp
  have T : Ttrap z Om0 w0 wa ≤ z / y * Ttrap y Om0 w0 wa := by
    unfold Ttrap
    rw [trapz_linspace, trapz_linspace, Finset.mul_sum]
    refine Finset.sum_le_sum fun i _ => ?_
    have t : ∀ i, 1 / Ez (linspace 0 z 510 i) Om0 w0 wa / (1 + linspace 0 z 510 i) ≤ 1 / Ez (linspace 0 y 510 i) Om0 w0 wa / (1 + linspace 0 y 510 i) := fun i => by
      have a := linspace_nonneg hy.le 510 i
      have b : linspace 0 y 510 i ≤ linspace 0 z 510 i := by rw [linspace_zero_eq, linspace_zero_eq]; gcongr
      have p := Ez_pos (by linarith : -1 < linspace 0 y 510 i) hO w0 wa
      exact div_le_div₀ (by positivity) (one_div_le_one_div_of_le p (Ez_mono hO hp a b)) (by linarith) (by linarith)
    have := mul_le_mul_of_nonneg_left (add_le_add (t i.castSucc) (t i.succ)) (by positivity : 0 ≤ z / (((510 : ℕ) : ℝ) + 1) / 2)
    calc _ = z / (((510 : ℕ) : ℝ) + 1) / 2 * _ := by ring
      _ ≤ _ := this
      _ = _ := by field_simp
  have lum : luminosity_distance_to_z z Om0 w0 wa h ≤ z * (1 + z) / (y * (1 + y)) * luminosity_distance_to_z y Om0 w0 wa h := by
    unfold luminosity_distance_to_z
    rw [comoving_eq, comoving_eq]
    have := mul_le_mul_of_nonneg_right D (mul_nonneg (CK_pos hh).le (by linarith : 0 ≤ 1 + z))
    calc _ = Dtrap z Om0 w0 wa * (C_SPEED * 1e-5 / h * (1 + z)) := by ring
      _ ≤ _ := this
      _ = _ := by generalize C_SPEED * 1e-5 / h = c; field_simp
  have L := (C49_positive hy hO hh w0 wa).2.1
  have L' := (C49_positive hz hO hh w0 wa).2.1
  refine ⟨⟨up, lum⟩, ?_, ?_, modulus_le L' L (by positivity) lum⟩
  · rw [lookback_eq, lookback_eq, mul_left_comm]
    exact mul_le_mul_of_nonneg_left T (Th_pos hh).le
  · have := modulus_le L L' one_pos (by rw [one_mul]; exact up)
    simpa using this

end modulus

section magnitudes
open Dsps.Photometry
variable [Dtype] {p q q' : ℕ} {wave f : Fin (p + 2) → ℝ} {fw ft : Fin (q + 1) → ℝ} {fw' ft' : Fin (q' + 1) → ℝ} {z Om0 Om1 w0 w0' wa wa' h h' : ℝ}

/-- C154: **observed magnitudes** depend on the cosmology only through the distance modulus: every observed colour is the same in all cosmologies, and an
error in the cosmological parameters moves every magnitude by the error of the distance modulus. -/
theorem C154_magnitudes :
    calc_obs_mag wave f fw ft z Om1 w0' wa' h' - calc_obs_mag wave f fw' ft' z Om1 w0' wa' h' =
      calc_obs_mag wave f fw ft z Om0 w0 wa h - calc_obs_mag wave f fw' ft' z Om0 w0 wa h ∧
    (0 < Om0 → Om0 ≤ 1 → 0 < Om1 → Om1 ≤ 1 → NonStiff w0 wa → 0 < h → 0 < h' → 0 < z →
      |calc_obs_mag wave f fw ft z Om1 w0' wa' h' - calc_obs_mag wave f fw ft z Om0 w0 wa h| ≤
        2.5 * |Real.logb 10 (Om1 / Om0)| + 2.5 / Real.log 10 * darkEnergyShift z (w0' - w0) (wa' - wa) + 5 * |Real.logb 10 (h' / h)|) := by
  constructor
  · unfold calc_obs_mag
    ring
  · intro h0 h1 h0' h1' hs hh hh' hz
    have := C154_modulus (w0' := w0') (wa' := wa') h0 h1 h0' h1' hs hh hh' hz
    refine le_trans (le_of_eq ?_) this
    congr 1
    unfold calc_obs_mag cosmological_dimming
    ring

end magnitudes

/-! ### The hypotheses are met -/
example := C154_matter (Om0 := 0.3) (Om1 := 0.31) (z := 2) (by norm_num) (by norm_num) (by norm_num) case_ns case_h (by norm_num)
example := C154_dark_energy (w0 := -1) (wa := 0) (w0' := -0.9) (wa' := 0.2) (z := 2) case_om case_h (by norm_num)
example := C154_modulus (Om0 := 0.3) (Om1 := 0.31) (w0' := -1) (wa' := 0) (h' := 0.68) (z := 2) (by norm_num) (by norm_num) (by norm_num) (by norm_num) case_ns case_h
  (by norm_num) (by norm_num)
example := C154_redshift (y := 1) (z := 1.01) case_om case_np case_ns case_h (by norm_num) (by norm_num)

end Dsps.Props
