import Verif.Lemmas.Age
import Verif.Lemmas.LcdmComoving
import Verif.Cases
import Mathlib.Analysis.Complex.ExponentialBounds

/-! C48–C54 and C73: the flat w0-wa cosmology module. -/
namespace Dsps.Props
open Jnp Dsps.Utils Dsps.FlatWcdm Dsps.Lemmas Spec Set
open scoped BigOperators

variable {n : ℕ}

/-- Non-vacuity: the three packaged cosmologies are physical, non-phantom and non-stiff. -/
example : PhysicalOm PLANCK15.Om0 ∧ PhysicalOm WMAP5.Om0 ∧ PhysicalOm FSPS_COSMO.Om0
    ∧ NonPhantom PLANCK15.w0 PLANCK15.wa ∧ NonStiff PLANCK15.w0 PLANCK15.wa
    ∧ PLANCK15.w0 = -1 ∧ PLANCK15.wa = 0 ∧ 0 < PLANCK15.h := by
  unfold PhysicalOm NonPhantom NonStiff PLANCK15 WMAP5 FSPS_COSMO; norm_num

/-- A dynamical dark energy meeting the hypotheses. -/
example : NonPhantom (-0.9) 0.2 ∧ NonStiff (-0.9) 0.2 := by unfold NonPhantom NonStiff; norm_num

/-! ### C48 -/

/-- C48: Etherington duality: `d_L = (1+z) d_C = (1+z)² d_A`, for every cosmology and every `z ≠ -1`. -/
theorem C48_distance_duality (z Om0 w0 wa h : ℝ) (hz : z ≠ -1) :
    luminosity_distance_to_z z Om0 w0 wa h = (1 + z) * comoving_distance_to_z z Om0 w0 wa h ∧
    luminosity_distance_to_z z Om0 w0 wa h = (1 + z) ^ 2 * angular_diameter_distance_to_z z Om0 w0 wa h := by
  have : 1 + z ≠ 0 := fun h => hz (by linarith)
  unfold luminosity_distance_to_z angular_diameter_distance_to_z
  constructor
  · ring
  · field_simp

/-- C48: the distance modulus is `5 log10` of the luminosity distance in units of 10 pc (`10 pc = 10 / 10⁶ Mpc`). -/
theorem C48_distance_modulus (z Om0 w0 wa h : ℝ) :
    distance_modulus_to_z z Om0 w0 wa h
      = 5 * Real.logb 10 (luminosity_distance_to_z z Om0 w0 wa h / (10 / 10 ^ 6)) := by
  unfold distance_modulus_to_z log10
  norm_num
  congr 1; ring

/-- C48: the modulus can be inverted to recover the luminosity distance. -/
theorem C48_modulus_inverse {z Om0 w0 wa h : ℝ} (hz : 0 < z) (hO : PhysicalOm Om0) (hh : 0 < h) :
    (10 : ℝ) ^ (distance_modulus_to_z z Om0 w0 wa h / 5) * (10 / 10 ^ 6)
      = luminosity_distance_to_z z Om0 w0 wa h := by
  have hd : 0 < luminosity_distance_to_z z Om0 w0 wa h := by
    unfold luminosity_distance_to_z
    rw [comoving_eq]
    have := Dtrap_pos hz hO w0 wa
    have := CK_pos hh
    positivity
  rw [C48_distance_modulus, mul_div_cancel_left₀ _ (by norm_num : (5 : ℝ) ≠ 0),
    Real.rpow_logb (by norm_num) (by norm_num) (by positivity)]
  field_simp

/-- C48: the vectorised functions are the scalar ones, elementwise. -/
theorem C48_vectorised (zs : Fin n → ℝ) (Om0 w0 wa h : ℝ) (i : Fin n) :
    comoving_distance zs Om0 w0 wa h i = comoving_distance_to_z (zs i) Om0 w0 wa h ∧
    luminosity_distance zs Om0 w0 wa h i = luminosity_distance_to_z (zs i) Om0 w0 wa h ∧
    angular_diameter_distance zs Om0 w0 wa h i = angular_diameter_distance_to_z (zs i) Om0 w0 wa h ∧
    distance_modulus zs Om0 w0 wa h i = distance_modulus_to_z (zs i) Om0 w0 wa h ∧
    lookback_time zs Om0 w0 wa h i = lookback_to_z (zs i) Om0 w0 wa h :=
  ⟨rfl, rfl, rfl, rfl, rfl⟩

/-! ### C49 -/

/-- C49: all distances and the lookback time vanish today, in every cosmology. -/
theorem C49_zero_today (Om0 w0 wa h : ℝ) :
    comoving_distance_to_z 0 Om0 w0 wa h = 0 ∧ luminosity_distance_to_z 0 Om0 w0 wa h = 0 ∧
    angular_diameter_distance_to_z 0 Om0 w0 wa h = 0 ∧ lookback_to_z 0 Om0 w0 wa h = 0 := by
  have h1 : comoving_distance_to_z 0 Om0 w0 wa h = 0 := by rw [comoving_eq, Dtrap_zero, zero_mul]
  refine ⟨h1, ?_, ?_, ?_⟩
  · unfold luminosity_distance_to_z; rw [h1, zero_mul]
  · unfold angular_diameter_distance_to_z; rw [h1, zero_div]
  · rw [lookback_eq, Ttrap_zero, mul_zero]

/-- C49: for `z > 0` everything is positive, for every dark-energy equation of state. -/
theorem C49_positive {z Om0 h : ℝ} (hz : 0 < z) (hO : PhysicalOm Om0) (hh : 0 < h) (w0 wa : ℝ) :
    0 < comoving_distance_to_z z Om0 w0 wa h ∧ 0 < luminosity_distance_to_z z Om0 w0 wa h ∧
    0 < angular_diameter_distance_to_z z Om0 w0 wa h ∧ 0 < lookback_to_z z Om0 w0 wa h ∧
    0 < age_at_z0 Om0 w0 wa h := by
  have h1 : 0 < comoving_distance_to_z z Om0 w0 wa h := by
    rw [comoving_eq]; exact mul_pos (Dtrap_pos hz hO w0 wa) (CK_pos hh)
  refine ⟨h1, mul_pos h1 (by linarith), div_pos h1 (by linarith), ?_, ?_⟩
  · rw [lookback_eq]; exact mul_pos (Th_pos hh) (Ttrap_pos hz hO w0 wa)
  · rw [age0_eq]; exact mul_pos (Th_pos hh) (Atrap_pos hO w0 wa)

/-- C49: distances and times are inversely proportional to `h`. -/
theorem C49_scale_with_h (z Om0 w0 wa : ℝ) {h : ℝ} (hh : h ≠ 0) :
    comoving_distance_to_z z Om0 w0 wa h = comoving_distance_to_z z Om0 w0 wa 1 / h ∧
    luminosity_distance_to_z z Om0 w0 wa h = luminosity_distance_to_z z Om0 w0 wa 1 / h ∧
    angular_diameter_distance_to_z z Om0 w0 wa h = angular_diameter_distance_to_z z Om0 w0 wa 1 / h ∧
    lookback_to_z z Om0 w0 wa h = lookback_to_z z Om0 w0 wa 1 / h ∧
    age_at_z0 Om0 w0 wa h = age_at_z0 Om0 w0 wa 1 / h := by
  have h1 : comoving_distance_to_z z Om0 w0 wa h = comoving_distance_to_z z Om0 w0 wa 1 / h := by
    rw [comoving_eq, comoving_eq]; field_simp
  have h2 : Th h = Th 1 / h := by unfold Th; field_simp
  refine ⟨h1, ?_, ?_, ?_, ?_⟩
  · unfold luminosity_distance_to_z; rw [h1]; ring
  · unfold angular_diameter_distance_to_z; rw [h1]; ring
  · rw [lookback_eq, lookback_eq, h2]; ring
  · rw [age0_eq, age0_eq, h2]; ring

/-! ### C50 -/

/-- C50: Hubble's law is an upper bound: `d_C ≤ c z / H0` for every non-phantom cosmology. -/
theorem C50_hubble_bound {z Om0 w0 wa h : ℝ} (hz : 0 ≤ z) (hO : PhysicalOm Om0) (hw : NonPhantom w0 wa)
    (hh : 0 < h) :
    comoving_distance_to_z z Om0 w0 wa h ≤ (2.99792458e5 / (100 * h)) * z := by
  rw [comoving_eq]
  calc _ ≤ z * (C_SPEED * 1e-5 / h) := mul_le_mul_of_nonneg_right (Dtrap_le hz hO hw) (CK_pos hh).le
    _ = _ := by unfold C_SPEED; field_simp; norm_num; ring

/-- C50: lookback time is at most the Hubble time times `z`, and (sharper at high redshift) times
`ln(1+z)` up to the quadrature excess `(z/1022)²`. -/
theorem C50_lookback_bound {z Om0 w0 wa h : ℝ} (hz : 0 ≤ z) (hO : PhysicalOm Om0) (hw : NonPhantom w0 wa)
    (hh : 0 < h) :
    lookback_to_z z Om0 w0 wa h ≤ hubble_time 0 Om0 w0 wa h * z ∧
    lookback_to_z z Om0 w0 wa h ≤ hubble_time 0 Om0 w0 wa h * (Real.log (1 + z) + (z / 1022) ^ 2) := by
  have e : hubble_time 0 Om0 w0 wa h = Th h := by
    rw [← hubble_time_zero Om0 w0 wa h]; norm_num
  rw [e, lookback_eq]
  exact ⟨mul_le_mul_of_nonneg_left (Ttrap_le hz hO hw) (Th_pos hh).le,
    mul_le_mul_of_nonneg_left (Ttrap_log hz hO hw) (Th_pos hh).le⟩

/-- C50: the luminosity distance strictly increases with redshift, for all `z ≥ 0` and every non-stiff dark energy. -/
theorem C50_luminosity_increasing {y z Om0 w0 wa h : ℝ} (hO : PhysicalOm Om0) (hw : NonStiff w0 wa) (hh : 0 < h)
    (hy : 0 ≤ y) (hyz : y < z) :
    luminosity_distance_to_z y Om0 w0 wa h < luminosity_distance_to_z z Om0 w0 wa h := by
  unfold luminosity_distance_to_z
  rw [comoving_eq, comoving_eq]
  have := mul_lt_mul_of_pos_right (Dlum_strictMono hO hw hy hyz) (CK_pos hh)
  nlinarith

/-- C50: so does the distance modulus: fainter is farther. -/
theorem C50_modulus_increasing {y z Om0 w0 wa h : ℝ} (hO : PhysicalOm Om0) (hw : NonStiff w0 wa) (hh : 0 < h)
    (hy : 0 < y) (hyz : y < z) :
    distance_modulus_to_z y Om0 w0 wa h < distance_modulus_to_z z Om0 w0 wa h := by
  have h1 := C50_luminosity_increasing hO hw hh hy.le hyz
  have h2 := (C49_positive hy hO hh w0 wa).2.1
  rw [C48_distance_modulus, C48_distance_modulus]
  have := Real.logb_lt_logb (b := 10) (by norm_num)
    (by positivity : 0 < luminosity_distance_to_z y Om0 w0 wa h / (10 / 10 ^ 6))
    (div_lt_div_of_pos_right h1 (by norm_num))
  linarith

/-- C50: the comoving distance strictly increases with redshift in every flat LCDM cosmology, for all redshifts – although
the integral is replaced by a 256-point table whose step grows with the redshift. -/
theorem C50_comoving_increasing {y z Om0 h : ℝ} (hO : PhysicalOm Om0) (hh : 0 < h) (hy : 0 ≤ y) (hyz : y < z) :
    comoving_distance_to_z y Om0 (-1) 0 h < comoving_distance_to_z z Om0 (-1) 0 h := by
  rw [comoving_eq, comoving_eq]
  exact mul_lt_mul_of_pos_right
    (Dtrap_strictMonoOn_Ici hO (mem_Ici.2 hy) (mem_Ici.2 (by linarith)) hyz) (CK_pos hh)

/-- C96: in every non-stiff (possibly phantom) dark energy the comoving distance increases up to redshift 2. -/
theorem C96_comoving_increasing_low_z {y z Om0 w0 wa h : ℝ} (hO : PhysicalOm Om0) (hw : NonStiff w0 wa)
    (hh : 0 < h) (hy : 0 ≤ y) (hyz : y < z) (hz : z ≤ 2) :
    comoving_distance_to_z y Om0 w0 wa h < comoving_distance_to_z z Om0 w0 wa h := by
  rw [comoving_eq, comoving_eq]
  exact mul_lt_mul_of_pos_right (Dtrap_strictMono hO hw hy hyz hz) (CK_pos hh)

/-- C50: the lookback time strictly increases with redshift in every flat LCDM cosmology, for all redshifts. -/
theorem C50_lookback_increasing {y z Om0 h : ℝ} (hO : PhysicalOm Om0) (hh : 0 < h) (hy : 0 ≤ y) (hyz : y < z) :
    lookback_to_z y Om0 (-1) 0 h < lookback_to_z z Om0 (-1) 0 h := by
  rw [lookback_eq, lookback_eq]
  exact mul_lt_mul_of_pos_left
    (Ttrap_strictMonoOn_Ici hO (mem_Ici.2 hy) (mem_Ici.2 (by linarith)) hyz) (Th_pos hh)

/-- C50: more matter means smaller distances, lookback times and ages. -/
theorem C50_decreasing_in_matter {z Om0 Om1 w0 wa h : ℝ} (hz : 0 ≤ z) (hO : PhysicalOm Om0) (hO1 : PhysicalOm Om1)
    (hOO : Om0 ≤ Om1) (hw : NonStiff w0 wa) (hh : 0 < h) :
    comoving_distance_to_z z Om1 w0 wa h ≤ comoving_distance_to_z z Om0 w0 wa h ∧
    luminosity_distance_to_z z Om1 w0 wa h ≤ luminosity_distance_to_z z Om0 w0 wa h ∧
    lookback_to_z z Om1 w0 wa h ≤ lookback_to_z z Om0 w0 wa h ∧
    age_at_z0 Om1 w0 wa h ≤ age_at_z0 Om0 w0 wa h := by
  have h1 : comoving_distance_to_z z Om1 w0 wa h ≤ comoving_distance_to_z z Om0 w0 wa h := by
    rw [comoving_eq, comoving_eq]
    exact mul_le_mul_of_nonneg_right (Dtrap_anti_Om hO hO1 hOO hw hz) (CK_pos hh).le
  refine ⟨h1, mul_le_mul_of_nonneg_right h1 (by linarith), ?_, ?_⟩
  · rw [lookback_eq, lookback_eq]
    exact mul_le_mul_of_nonneg_left (Ttrap_anti_Om hO hO1 hOO hw hz) (Th_pos hh).le
  · rw [age0_eq, age0_eq]
    exact mul_le_mul_of_nonneg_left (Atrap_anti_Om hO hOO hw) (Th_pos hh).le

/-! ### C51 -/

/-- C51: `_Ez` solves the Friedmann equation and `_rho_de_z` is the CPL dark-energy density, for `z > -1`. -/
theorem C51_friedmann {z Om0 : ℝ} (hz : -1 < z) (hO : PhysicalOm Om0) (w0 wa : ℝ) :
    0 < Ez z Om0 w0 wa ∧ Ez z Om0 w0 wa ^ 2 = friedmann Om0 w0 wa z ∧
    rho_de_z z w0 wa = darkEnergyDensity w0 wa z :=
  ⟨Ez_pos hz hO w0 wa, Ez_sq hz hO w0 wa, rho_de_eq hz w0 wa⟩

/-- C51: the two integrands are `1/E` and `1/((1+z) E)`. -/
theorem C51_integrands {z Om0 : ℝ} (hz : -1 < z) (hO : PhysicalOm Om0) (w0 wa : ℝ) :
    0 < integrand_oneOverEz z Om0 w0 wa ∧ integrand_oneOverEz z Om0 w0 wa ^ 2 * friedmann Om0 w0 wa z = 1 ∧
    integrand_oneOverEz1pz z Om0 w0 wa * (1 + z) = integrand_oneOverEz z Om0 w0 wa := by
  have h := Ez_pos hz hO w0 wa
  have h1 : (1 : ℝ) + z ≠ 0 := by linarith
  refine ⟨one_div_pos.2 h, ?_, ?_⟩
  · rw [← Ez_sq hz hO w0 wa]; unfold integrand_oneOverEz; field_simp
  · unfold integrand_oneOverEz integrand_oneOverEz1pz
    norm_num
    field_simp

/-- C51: the continuity equation: `d ln ρ_DE / d ln(1+z) = 3 (1 + w(z))` with `w(z) = w0 + wa z/(1+z)`. -/
theorem C51_dark_energy_continuity {z : ℝ} (hz : -1 < z) (w0 wa : ℝ) :
    HasDerivAt (fun x => Real.log (rho_de_z x w0 wa)) (3 * (1 + (w0 + wa * (z / (1 + z)))) / (1 + z)) z := by
  have hu : (1 : ℝ) + z ≠ 0 := by linarith
  have h1 := (((hasDerivAt_id z).const_add 1).log (by simpa using hu)).const_mul (3 * (1 + w0 + wa))
  have h2 := (((((hasDerivAt_id z).const_add 1).inv (by simpa using hu))).const_sub 1).const_mul (3 * wa)
  have h3 := h1.sub h2
  have hev : (fun x => Real.log (rho_de_z x w0 wa)) =ᶠ[nhds z]
      fun x => 3 * (1 + w0 + wa) * Real.log (1 + x) - 3 * wa * (1 - (1 + x)⁻¹) := by
    filter_upwards [lt_mem_nhds hz] with x hx
    rw [rho_de_eq hx, de_exp hx, Real.log_exp]; simp
  refine HasDerivAt.congr_of_eventuallyEq ?_ hev
  refine h3.congr_deriv ?_
  simp; field_simp; ring

/-- C51: today the expansion rate is one in every cosmology. -/
theorem C51_today (Om0 w0 wa : ℝ) : Ez 0 Om0 w0 wa = 1 ∧ rho_de_z 0 w0 wa = 1 := by
  refine ⟨Ez_zero Om0 w0 wa, ?_⟩
  rw [rho_de_eq (by norm_num), de_zero]

/-- C51: for non-phantom dark energy the expansion rate never decreases with redshift; with some matter it strictly
increases; hence it is at least 1 for `z ≥ 0`. -/
theorem C51_increasing {y z Om0 w0 wa : ℝ} (hO : PhysicalOm Om0) (hw : NonPhantom w0 wa) (hy : 0 ≤ y) (hyz : y ≤ z) :
    Ez y Om0 w0 wa ≤ Ez z Om0 w0 wa ∧ 1 ≤ Ez z Om0 w0 wa ∧
    (0 < Om0 → y < z → Ez y Om0 w0 wa < Ez z Om0 w0 wa) := by
  refine ⟨Ez_mono hO hw hy hyz, one_le_Ez hO hw (by linarith), fun h0 hlt => ?_⟩
  rw [Ez_eq (by linarith), Ez_eq (by linarith)]
  apply Real.sqrt_lt_sqrt (friedmann_pos (by linarith) hO w0 wa).le
  unfold friedmann
  have h1 : (1 + y) ^ 3 < (1 + z) ^ 3 := pow_lt_pow_left₀ (by linarith) (by linarith) (by norm_num)
  have h2 := mul_lt_mul_of_pos_left h1 h0
  have h3 := mul_le_mul_of_nonneg_left (de_mono hw hy hyz) (sub_nonneg.2 hO.2)
  linarith

/-- C51: the matter fraction is a fraction, equals `Om0` today. -/
theorem C51_matter_fraction {z Om0 : ℝ} (hz : -1 < z) (hO : PhysicalOm Om0) (w0 wa : ℝ) :
    0 ≤ Om_at_z z Om0 w0 wa ∧ Om_at_z z Om0 w0 wa ≤ 1 ∧ Om_at_z 0 Om0 w0 wa = Om0 := by
  have hE := Ez_pos hz hO w0 wa
  have hu : 0 < 1 + z := by linarith
  have e : Om_at_z z Om0 w0 wa = Om0 * (1 + z) ^ 3 / Ez z Om0 w0 wa ^ 2 := by
    unfold Om_at_z; norm_num; field_simp
  refine ⟨?_, ?_, ?_⟩
  · rw [e]; exact div_nonneg (mul_nonneg hO.1 (by positivity)) (by positivity)
  · rw [e, div_le_one (by positivity), Ez_sq hz hO, friedmann]
    have := mul_nonneg (sub_nonneg.2 hO.2) (de_pos hz w0 wa).le
    linarith
  · unfold Om_at_z; simp only [Ez_zero]; norm_num

theorem Om_eq {z Om0 : ℝ} (hz : -1 < z) (hO : PhysicalOm Om0) (w0 wa : ℝ) :
    Om_at_z z Om0 w0 wa = Om0 / (friedmann Om0 w0 wa z / (1 + z) ^ 3) := by
  have hE := Ez_pos hz hO w0 wa
  have hu : 0 < 1 + z := by linarith
  rw [← Ez_sq hz hO]
  unfold Om_at_z; norm_num; field_simp

/-- C51: the matter fraction never decreases with redshift (non-stiff dark energy). -/
theorem C51_matter_fraction_increasing {y z Om0 w0 wa : ℝ} (hO : PhysicalOm Om0) (hw : NonStiff w0 wa)
    (hy : 0 ≤ y) (hyz : y ≤ z) : Om_at_z y Om0 w0 wa ≤ Om_at_z z Om0 w0 wa := by
  rw [Om_eq (by linarith) hO, Om_eq (by linarith) hO]
  have hu : 0 < 1 + z := by linarith
  exact div_le_div_of_nonneg_left hO.1 (div_pos (friedmann_pos (by linarith) hO w0 wa) (by positivity))
    (friedmann_div_anti hO hw hy hyz)

/-- C51: matter and dark-energy fractions add up to one. -/
theorem C51_fractions_sum_to_one {z Om0 : ℝ} (hz : -1 < z) (hO : PhysicalOm Om0) (w0 wa : ℝ) :
    Om_at_z z Om0 w0 wa + (1 - Om0) * rho_de_z z w0 wa / Ez z Om0 w0 wa ^ 2 = 1 := by
  have hE := Ez_pos hz hO w0 wa
  have e : Om_at_z z Om0 w0 wa = Om0 * (1 + z) ^ 3 / Ez z Om0 w0 wa ^ 2 := by
    unfold Om_at_z; norm_num; field_simp
  rw [e, ← add_div, rho_de_eq hz]
  rw [div_eq_one_iff_eq (by positivity), Ez_sq hz hO, friedmann]

/-! ### C52 -/

/-- C52: age plus lookback time is the age today, for every array of redshifts and every cosmology. -/
theorem C52_age_plus_lookback (zs : Fin n → ℝ) (Om0 w0 wa h : ℝ) (i : Fin n) :
    age_at_z zs Om0 w0 wa h i + lookback_to_z (zs i) Om0 w0 wa h = age_at_z0 Om0 w0 wa h := by
  simp [age_at_z, vmap, age_at_z_kern]

/-- C52: the age at redshift zero is the age today; earlier is younger. -/
theorem C52_age_today (zs : Fin n → ℝ) (Om0 w0 wa h : ℝ) (i : Fin n) :
    (zs i = 0 → age_at_z zs Om0 w0 wa h i = age_at_z0 Om0 w0 wa h) ∧
    (0 < zs i → PhysicalOm Om0 → 0 < h → age_at_z zs Om0 w0 wa h i < age_at_z0 Om0 w0 wa h) := by
  refine ⟨fun h0 => ?_, fun h0 hO hh => ?_⟩
  · have := C52_age_plus_lookback zs Om0 w0 wa h i
    rw [h0, (C49_zero_today Om0 w0 wa h).2.2.2] at this; linarith
  · have := C52_age_plus_lookback zs Om0 w0 wa h i
    have := (C49_positive h0 hO hh w0 wa).2.2.2.1
    linarith

/-- C52: the age is positive in every flat LCDM cosmology for `0 ≤ z ≤ 35`.  (Partial: the claim for all `z` is
false, see `C52_age_negative_at_high_z`.) -/
theorem C52_age_positive_partial {Om0 h : ℝ} (zs : Fin n → ℝ) (i : Fin n) (hz : 0 ≤ zs i) (hz' : zs i ≤ 35)
    (hO : PhysicalOm Om0) (hh : 0 < h) : 0 < age_at_z zs Om0 (-1) 0 h i := by
  have := C52_age_plus_lookback zs Om0 (-1) 0 h i
  rw [age0_eq, lookback_eq] at this
  have := mul_lt_mul_of_pos_left (age_gap hO hz hz') (Th_pos hh)
  linarith

/-- C52, negated for large redshift: in every flat LCDM cosmology with `Om0 ≥ 0.3` (including the default), the
reported age is negative from redshift 1100 on. -/
theorem C52_age_negative_at_high_z {Om0 h : ℝ} (zs : Fin n → ℝ) (i : Fin n) (hz : 1100 ≤ zs i)
    (hO : 0.3 ≤ Om0) (hO1 : Om0 ≤ 1) (hh : 0 < h) : age_at_z zs Om0 (-1) 0 h i < 0 := by
  have hO' : PhysicalOm Om0 := ⟨by linarith, hO1⟩
  have h1 := C52_age_plus_lookback zs Om0 (-1) 0 h i
  rw [age0_eq, lookback_eq] at h1
  have h2 : Atrap Om0 (-1) 0 < Ttrap (zs i) Om0 (-1) 0 := by
    have a1 := Atrap_anti_Om (Om0 := 0.3) (Om1 := Om0) (w0 := -1) (wa := 0)
      (by constructor <;> norm_num) hO (by constructor <;> norm_num)
    have a2 := Atrap_upper
    have a3 := Ttrap_big hO' (-1) 0 (by linarith : 0 ≤ zs i)
    have a4 : (1.02 : ℝ) < 1100 / 1022 := by norm_num
    have a5 : (1100 : ℝ) / 1022 ≤ zs i / 1022 := by gcongr
    linarith
  have := mul_lt_mul_of_pos_left h2 (Th_pos hh)
  linarith

/-- The default cosmology is in the scope of `C52_age_negative_at_high_z`. -/
example : age_at_z (n := 1) (fun _ => 1100) PLANCK15.Om0 PLANCK15.w0 PLANCK15.wa PLANCK15.h 0 < 0 := by
  have h1 : PLANCK15.w0 = -1 := by unfold PLANCK15; norm_num
  have h2 : PLANCK15.wa = 0 := by unfold PLANCK15; norm_num
  rw [h1, h2]
  apply C52_age_negative_at_high_z _ _ le_rfl <;> (unfold PLANCK15; norm_num)

/-- C52: age strictly decreases with redshift in every flat LCDM cosmology: for any two entries of a redshift array. -/
theorem C52_age_decreasing {Om0 h : ℝ} (hO : PhysicalOm Om0) (hh : 0 < h) (zs : Fin n → ℝ) (i j : Fin n)
    (hi : 0 ≤ zs i) (hij : zs i < zs j) : age_at_z zs Om0 (-1) 0 h j < age_at_z zs Om0 (-1) 0 h i := by
  have h1 := C52_age_plus_lookback zs Om0 (-1) 0 h i
  have h2 := C52_age_plus_lookback zs Om0 (-1) 0 h j
  have h3 := C50_lookback_increasing hO hh hi hij
  linarith

/-- C52, negated in every flat LCDM cosmology: beyond redshift 7200 the computed age is negative, whatever `Om0`. -/
theorem C52_age_negative_everywhere {Om0 h : ℝ} (hO : PhysicalOm Om0) (hh : 0 < h) (zs : Fin n → ℝ) (i : Fin n)
    (hz : 7200 ≤ zs i) : age_at_z zs Om0 (-1) 0 h i < 0 := by
  have h1 := C52_age_plus_lookback zs Om0 (-1) 0 h i
  rw [age0_eq, lookback_eq] at h1
  have h2 : Atrap Om0 (-1) 0 < Ttrap (zs i) Om0 (-1) 0 := by
    have a1 := Ttrap_big hO (-1) 0 (by linarith : 0 ≤ zs i)
    have a2 := Atrap_le hO
    have a3 : ∫ t in (0 : ℝ)..999, Lq Om0 t ≤ Real.log 1000 := by
      have e : ∫ t in (0 : ℝ)..999, Lv t = Real.log 1000 := by
        have hd : ∀ x ∈ uIcc (0 : ℝ) 999, HasDerivAt (fun x => Real.log (1 + x)) (Lv x) x := by
          intro x hx
          rw [uIcc_of_le (by norm_num)] at hx
          have := ((hasDerivAt_id x).const_add 1).log (by simp; linarith [hx.1])
          refine this.congr_deriv ?_
          simp [Lv]
        rw [intervalIntegral.integral_eq_sub_of_hasDerivAt hd]
        · norm_num
        · exact ContinuousOn.intervalIntegrable (by
            rw [uIcc_of_le (by norm_num)]
            exact fun x hx => (Lv_deriv (by linarith [hx.1])).continuousAt.continuousWithinAt)
      rw [← e]
      apply intervalIntegral.integral_mono_on (by norm_num) (Lq_int hO le_rfl (by norm_num))
      · exact ContinuousOn.intervalIntegrable (by
          rw [uIcc_of_le (by norm_num)]
          exact fun x hx => (Lv_deriv (by linarith [hx.1])).continuousAt.continuousWithinAt)
      · intro x hx
        exact Lq_le_Lv hO hx.1
    have a4 : Real.log 1000 ≤ 6.94 := by
      have b1 : Real.log 1000 ≤ Real.log (2 ^ 10) := Real.log_le_log (by norm_num) (by norm_num)
      rw [Real.log_pow] at b1
      have := Real.log_two_lt_d9
      push_cast at b1
      linarith
    norm_num at a4 a2
    linarith
  have := mul_lt_mul_of_pos_left h2 (Th_pos hh)
  linarith

/-- C52: where exactly positivity fails: in every flat LCDM cosmology there is one redshift, between 35 and 7200 (1100 if
`Om0 ≥ 0.3`), below which all ages are positive and above which all ages are negative. -/
theorem C52_age_sign {Om0 h : ℝ} (hO : PhysicalOm Om0) (hh : 0 < h) :
    ∃ zc : ℝ, 35 ≤ zc ∧ zc ≤ 7200 ∧ (0.3 ≤ Om0 → zc ≤ 1100) ∧ ∀ {n : ℕ} (zs : Fin n → ℝ) (i : Fin n), 0 ≤ zs i →
      (0 < age_at_z zs Om0 (-1) 0 h i ↔ zs i < zc) ∧ (age_at_z zs Om0 (-1) 0 h i < 0 ↔ zc < zs i) := by
  have hcont : ContinuousOn (fun z => age_at_z0 Om0 (-1) 0 h - lookback_to_z z Om0 (-1) 0 h) (Icc 35 7200) := by
    apply ContinuousOn.sub continuousOn_const
    have e : EqOn (fun z => lookback_to_z z Om0 (-1) 0 h)
        (fun z => Th h * trapz (linspace 0 z 510) (fun i => Lq Om0 (linspace 0 z 510 i))) (Icc 35 7200) := by
      intro z hz
      simp only
      rw [lookback_eq, Ttrap_lcdm Om0 (by linarith [hz.1])]
    refine ContinuousOn.congr ?_ e
    apply ContinuousOn.mul continuousOn_const
    intro z hz
    exact (unif_hasDeriv (fun t ht => Lq_deriv hO (by linarith : -1 < t)) (by linarith [hz.1]) 510).continuousAt.continuousWithinAt
  have ha : ∀ {n : ℕ} (zs : Fin n → ℝ) (i : Fin n), age_at_z zs Om0 (-1) 0 h i
      = age_at_z0 Om0 (-1) 0 h - lookback_to_z (zs i) Om0 (-1) 0 h := by
    intro n zs i
    have := C52_age_plus_lookback zs Om0 (-1) 0 h i
    linarith
  have hlo := C52_age_positive_partial (fun _ : Fin 1 => (35 : ℝ)) 0 (by norm_num) le_rfl hO hh
  have hhi := C52_age_negative_everywhere hO hh (fun _ : Fin 1 => (7200 : ℝ)) 0 le_rfl
  rw [ha] at hlo hhi
  obtain ⟨zc, hzc, h0⟩ := intermediate_value_Icc' (by norm_num : (35 : ℝ) ≤ 7200) hcont ⟨hhi.le, hlo.le⟩
  simp only at h0
  have hmono : ∀ {a b : ℝ}, 0 ≤ a → a < b → lookback_to_z a Om0 (-1) 0 h < lookback_to_z b Om0 (-1) 0 h :=
    fun h1 h2 => C50_lookback_increasing hO hh h1 h2
  have hzc0 : 0 ≤ zc := by linarith [hzc.1]
  refine ⟨zc, hzc.1, hzc.2, fun h3 => ?_, fun zs i hi => ?_⟩
  · by_contra hc
    push Not at hc
    have h1 := C52_age_negative_at_high_z (fun _ : Fin 1 => (1100 : ℝ)) 0 le_rfl h3 hO.2 hh
    rw [ha] at h1
    have := hmono (by norm_num) hc
    linarith
  rw [ha]
  rcases lt_trichotomy (zs i) zc with hlt | heq | hgt
  · have := hmono hi hlt
    exact ⟨⟨fun _ => hlt, fun _ => by linarith⟩, ⟨fun _ => by linarith, fun _ => by linarith⟩⟩
  · rw [heq, h0]; simp
  · have := hmono hzc0 hgt
    exact ⟨⟨fun _ => by linarith, fun _ => by linarith⟩, ⟨fun _ => hgt, fun _ => by linarith⟩⟩

/-! ### C53 -/

/-- C53: the critical density is `ρ0 h² E²`. -/
theorem C53_rho_crit {z Om0 : ℝ} (hz : -1 < z) (hO : PhysicalOm Om0) (w0 wa : ℝ) {h : ℝ} (hh : 0 < h) :
    rho_crit z Om0 w0 wa h = 277.536627 * h ^ 2 * friedmann Om0 w0 wa z ∧ 0 < rho_crit z Om0 w0 wa h ∧
    rho_crit 0 Om0 w0 wa h = 277.536627 * h ^ 2 := by
  have e : rho_crit z Om0 w0 wa h = 277.536627 * h ^ 2 * friedmann Om0 w0 wa z := by
    unfold rho_crit RHO_CRIT0_KPC3_UNITY_H
    simp only [Ez_sq hz hO]; ring
  refine ⟨e, ?_, ?_⟩
  · rw [e]; have := friedmann_pos hz hO w0 wa; positivity
  · unfold rho_crit RHO_CRIT0_KPC3_UNITY_H; simp only [Ez_zero]; ring

/-- C53: in terms of the matter fraction the virial overdensity is the Bryan–Norman fit, lies in
`[18π² - 121, 18π²]` (so in `(56.6, 177.7)`) and is `18π²` exactly when only matter is left. -/
theorem C53_delta_vir (zs : Fin n → ℝ) (i : Fin n) {Om0 : ℝ} (hz : -1 < zs i) (hO : PhysicalOm Om0) (w0 wa : ℝ) :
    18 * Real.pi ^ 2 - 121 ≤ delta_vir zs Om0 w0 wa i ∧ delta_vir zs Om0 w0 wa i ≤ 18 * Real.pi ^ 2 ∧
    56.6 < delta_vir zs Om0 w0 wa i ∧
    (delta_vir zs Om0 w0 wa i = 18 * Real.pi ^ 2 ↔ Om_at_z (zs i) Om0 w0 wa = 1) := by
  obtain ⟨h0, h1, -⟩ := C51_matter_fraction hz hO w0 wa
  have e : delta_vir zs Om0 w0 wa i = 18 * Real.pi ^ 2 + 82 * (Om_at_z (zs i) Om0 w0 wa - 1)
      - 39 * (Om_at_z (zs i) Om0 w0 wa - 1) ^ 2 := by
    unfold delta_vir Om vmap; norm_num
  rw [e]
  generalize Om_at_z (zs i) Om0 w0 wa = x at h0 h1
  have hpi : 9.867 < Real.pi ^ 2 := by nlinarith [Real.pi_gt_d4]
  refine ⟨by nlinarith, by nlinarith, by norm_num at hpi ⊢; nlinarith, fun h => ?_, fun h => by rw [h]; ring⟩
  by_contra hne
  have : x < 1 := lt_of_le_of_ne h1 hne
  nlinarith

/-- C53: the overdensity never decreases with redshift. -/
theorem C53_delta_vir_increasing {y z Om0 w0 wa : ℝ} (hO : PhysicalOm Om0) (hw : NonStiff w0 wa)
    (hy : 0 ≤ y) (hyz : y ≤ z) :
    delta_vir (fun _ : Fin 1 => y) Om0 w0 wa 0 ≤ delta_vir (fun _ : Fin 1 => z) Om0 w0 wa 0 := by
  have h := C51_matter_fraction_increasing hO hw hy hyz
  have h1 := (C51_matter_fraction (by linarith : -1 < z) hO w0 wa).2.1
  have h2 := (C51_matter_fraction (by linarith : -1 < y) hO w0 wa).1
  unfold delta_vir Om vmap
  simp only
  generalize Om_at_z y Om0 w0 wa = a at *
  generalize Om_at_z z Om0 w0 wa = b at *
  norm_num
  nlinarith

/-- C53: the dynamical time is positive, inversely proportional to `h`, and
`t² = 8 t_H² / Δ` with `t_H` the Hubble time at that redshift. -/
theorem C53_dynamical_time (zs : Fin n → ℝ) (i : Fin n) {Om0 h : ℝ} (hz : -1 < zs i) (hO : PhysicalOm Om0)
    (w0 wa : ℝ) (hh : 0 < h) :
    0 < virial_dynamical_time zs Om0 w0 wa h i ∧
    virial_dynamical_time zs Om0 w0 wa h i = virial_dynamical_time zs Om0 w0 wa 1 i / h ∧
    virial_dynamical_time zs Om0 w0 wa h i ^ 2 * delta_vir zs Om0 w0 wa i
      = 8 * hubble_time (zs i) Om0 w0 wa h ^ 2 := by
  obtain ⟨-, -, h3, -⟩ := C53_delta_vir zs i hz hO w0 wa
  have hd : 0 < delta_vir zs Om0 w0 wa i := by linarith
  have hE := Ez_pos hz hO w0 wa
  have hH : 0 < hubble_time (zs i) Om0 w0 wa h := by unfold hubble_time MPC YEAR; positivity
  refine ⟨?_, ?_, ?_⟩
  · unfold virial_dynamical_time; positivity
  · unfold virial_dynamical_time hubble_time; field_simp
  · unfold virial_dynamical_time
    simp only
    have e1 : ((2 : ℝ) ^ (1.5 : ℝ)) ^ 2 = 8 := by
      rw [← Real.rpow_natCast, ← Real.rpow_mul (by norm_num)]; norm_num
    have e2 : (delta_vir zs Om0 w0 wa i ^ (-0.5 : ℝ)) ^ 2 = (delta_vir zs Om0 w0 wa i)⁻¹ := by
      rw [← Real.rpow_natCast, ← Real.rpow_mul hd.le, ← Real.rpow_neg_one]; norm_num
    rw [mul_pow, mul_pow, e1, e2]
    field_simp

/-- C53: with non-phantom, non-stiff dark energy and some matter, the dynamical time strictly decreases with
redshift.  In particular in every flat LCDM cosmology with matter. -/
theorem C53_dynamical_time_decreasing {y z Om0 w0 wa h : ℝ} (hO : PhysicalOm Om0) (hO0 : 0 < Om0)
    (hw : NonPhantom w0 wa) (hw' : NonStiff w0 wa) (hh : 0 < h) (hy : 0 ≤ y) (hyz : y < z) :
    virial_dynamical_time (fun _ : Fin 1 => z) Om0 w0 wa h 0
      < virial_dynamical_time (fun _ : Fin 1 => y) Om0 w0 wa h 0 := by
  have hE := (C51_increasing hO hw hy hyz.le).2.2 hO0 hyz
  have hEy := Ez_pos (by linarith : -1 < y) hO w0 wa
  have hd := C53_delta_vir_increasing hO hw' hy hyz.le
  have hdy := (C53_delta_vir (fun _ : Fin 1 => y) 0 (by linarith) hO w0 wa).2.2.1
  have hH : hubble_time z Om0 w0 wa h < hubble_time y Om0 w0 wa h := by
    unfold hubble_time
    apply div_lt_div_of_pos_left _ hEy hE
    unfold MPC YEAR; positivity
  have hHz : 0 < hubble_time z Om0 w0 wa h := by
    have := Ez_pos (by linarith : -1 < z) hO w0 wa
    unfold hubble_time MPC YEAR; positivity
  have hd0 : 0 < delta_vir (fun _ : Fin 1 => y) Om0 w0 wa 0 := by linarith
  have hp : delta_vir (fun _ : Fin 1 => z) Om0 w0 wa 0 ^ (-0.5 : ℝ)
      ≤ delta_vir (fun _ : Fin 1 => y) Om0 w0 wa 0 ^ (-0.5 : ℝ) :=
    Real.rpow_le_rpow_of_nonpos hd0 hd (by norm_num)
  have hp0 : 0 < delta_vir (fun _ : Fin 1 => z) Om0 w0 wa 0 ^ (-0.5 : ℝ) :=
    Real.rpow_pos_of_pos (by linarith) _
  unfold virial_dynamical_time
  simp only
  have h2 : 0 < (2 : ℝ) ^ (1.5 : ℝ) := by positivity
  have a := mul_lt_mul_of_pos_left hH h2
  exact mul_lt_mul a hp hp0 (mul_pos h2 (hHz.trans hH)).le

/-! ### C54 -/

/-- C54: `dV/dz/dΩ = (c/H0) d_C² / E`. -/
theorem C54_formula {z : ℝ} (hz : -1 < z) (Om0 w0 wa h : ℝ) :
    differential_comoving_volume_at_z z Om0 w0 wa h
      = (2.99792458e5 / (100 * h)) * comoving_distance_to_z z Om0 w0 wa h ^ 2 / Ez z Om0 w0 wa := by
  have hu : 1 + z ≠ 0 := by linarith
  unfold differential_comoving_volume_at_z angular_diameter_distance_to_z hubble_distance_mpc C_SPEED
  simp only
  have e2 : ∀ x : ℝ, x ^ (2.0 : ℝ) = x ^ 2 := fun x => by
    rw [show (2.0 : ℝ) = ((2 : ℕ) : ℝ) by norm_num, Real.rpow_natCast]
  rw [e2]
  have e3 : (1.0 + z) * (comoving_distance_to_z z Om0 w0 wa h / (1 + z)) = comoving_distance_to_z z Om0 w0 wa h := by
    norm_num; field_simp
  rw [e3]; norm_num

/-- C54: non-negative, and zero only at `z = 0`. -/
theorem C54_positive {z Om0 h : ℝ} (hz : 0 ≤ z) (hO : PhysicalOm Om0) (hh : 0 < h) (w0 wa : ℝ) :
    0 ≤ differential_comoving_volume_at_z z Om0 w0 wa h ∧
    (differential_comoving_volume_at_z z Om0 w0 wa h = 0 ↔ z = 0) := by
  rw [C54_formula (by linarith)]
  have hE := Ez_pos (by linarith : -1 < z) hO w0 wa
  refine ⟨by positivity, fun h0 => ?_, fun h0 => ?_⟩
  · by_contra hne
    have hz0 : 0 < z := lt_of_le_of_ne hz (Ne.symm hne)
    have := (C49_positive hz0 hO hh w0 wa).1
    have : 0 < (2.99792458e5 / (100 * h)) * comoving_distance_to_z z Om0 w0 wa h ^ 2 / Ez z Om0 w0 wa := by positivity
    linarith
  · subst h0; rw [(C49_zero_today Om0 w0 wa h).1]; simp

/-- C54: the array form, elementwise. -/
theorem C54_vectorised (zs : Fin n → ℝ) (Om0 w0 wa h : ℝ) (i : Fin n) (hz : -1 < zs i) :
    differential_comoving_volume zs Om0 w0 wa h i
      = (2.99792458e5 / (100 * h)) * comoving_distance_to_z (zs i) Om0 w0 wa h ^ 2 / Ez (zs i) Om0 w0 wa :=
  C54_formula hz Om0 w0 wa h

/-- C54: scales as `h⁻³`. -/
theorem C54_scale_with_h {z : ℝ} (hz : -1 < z) (Om0 w0 wa : ℝ) {h : ℝ} (hh : h ≠ 0) :
    differential_comoving_volume_at_z z Om0 w0 wa h = differential_comoving_volume_at_z z Om0 w0 wa 1 / h ^ 3 := by
  rw [C54_formula hz, C54_formula hz, (C49_scale_with_h z Om0 w0 wa hh).1]
  field_simp

/-- C54: it is the derivative of the comoving volume per steradian of the exact distance: if `D` is any function with
`D' = (c/H0)/E` and `D(z) = d_C(z)`, then `(D³/3)' = dV/dz/dΩ`. -/
theorem C54_is_volume_derivative {z : ℝ} (hz : -1 < z) (Om0 w0 wa h : ℝ) (D : ℝ → ℝ)
    (hD : HasDerivAt D ((2.99792458e5 / (100 * h)) / Ez z Om0 w0 wa) z)
    (hDz : D z = comoving_distance_to_z z Om0 w0 wa h) :
    HasDerivAt (fun x => D x ^ 3 / 3) (differential_comoving_volume_at_z z Om0 w0 wa h) z := by
  refine ((hD.pow 3).div_const 3).congr_deriv ?_
  rw [C54_formula hz, hDz]
  simp; ring

/-! ### C73: accuracy of the quadratures -/

/-- C73: in flat LCDM the comoving distance differs from the exact `(c/H0) ∫₀ᶻ dz'/E(z')` by at most
`(c/H0) (15/16) (z/255)² z/(1+z)`, for every redshift and matter density. -/
theorem C73_comoving_accuracy {z Om0 h : ℝ} (hz : 0 ≤ z) (hO : PhysicalOm Om0) (hh : 0 < h) :
    |comoving_distance_to_z z Om0 (-1) 0 h
      - (2.99792458e5 / (100 * h)) * ∫ t in (0 : ℝ)..z, 1 / Real.sqrt (friedmann Om0 (-1) 0 t)|
      ≤ (2.99792458e5 / (100 * h)) * (15 / 16 * (z / 255) ^ 2 * (z / (1 + z))) := by
  have e1 : ∫ t in (0 : ℝ)..z, 1 / Real.sqrt (friedmann Om0 (-1) 0 t) = ∫ t in (0 : ℝ)..z, Lf Om0 t := by
    apply intervalIntegral.integral_congr
    intro x hx
    rw [uIcc_of_le hz] at hx
    simp only [friedmann_lcdm Om0 (by linarith [hx.1] : -1 < x)]
    rfl
  have e2 : C_SPEED * 1e-5 / h = 2.99792458e5 / (100 * h) := by unfold C_SPEED; field_simp; norm_num
  rw [e1, comoving_eq, e2, mul_comm (Dtrap z Om0 (-1) 0), ← mul_sub, abs_mul]
  have hp : 0 < (2.99792458e5 : ℝ) / (100 * h) := by positivity
  rw [abs_of_pos hp]
  exact mul_le_mul_of_nonneg_left (Dtrap_quad hO hz) hp.le

/-- C73: the lookback time never falls short of the exact integral and exceeds it by at most
`t_H (5/8) (z/511)²`. -/
theorem C73_lookback_accuracy {z Om0 h : ℝ} (hz : 0 ≤ z) (hO : PhysicalOm Om0) (hh : 0 < h) :
    hubble_time 0 Om0 (-1) 0 h * (∫ t in (0 : ℝ)..z, 1 / Real.sqrt (friedmann Om0 (-1) 0 t) / (1 + t))
      ≤ lookback_to_z z Om0 (-1) 0 h ∧
    lookback_to_z z Om0 (-1) 0 h ≤
      hubble_time 0 Om0 (-1) 0 h * ((∫ t in (0 : ℝ)..z, 1 / Real.sqrt (friedmann Om0 (-1) 0 t) / (1 + t))
        + 5 / 8 * (z / 511) ^ 2) := by
  have e1 : ∫ t in (0 : ℝ)..z, 1 / Real.sqrt (friedmann Om0 (-1) 0 t) / (1 + t) = ∫ t in (0 : ℝ)..z, Lq Om0 t := by
    apply intervalIntegral.integral_congr
    intro x hx
    rw [uIcc_of_le hz] at hx
    simp only [friedmann_lcdm Om0 (by linarith [hx.1] : -1 < x)]
    rfl
  have e : hubble_time 0 Om0 (-1) 0 h = Th h := by
    rw [← hubble_time_zero Om0 (-1) 0 h]; norm_num
  rw [e1, e, lookback_eq]
  exact ⟨mul_le_mul_of_nonneg_left (Ttrap_quad hO hz).1 (Th_pos hh).le,
    mul_le_mul_of_nonneg_left (Ttrap_quad hO hz).2 (Th_pos hh).le⟩

/-- C73: the age today is the exact integral out to redshift 999, to within 0.05 per cent. -/
theorem C73_age_accuracy {Om0 h : ℝ} (hO : PhysicalOm Om0) (hh : 0 < h) :
    hubble_time 0 Om0 (-1) 0 h * (∫ t in (0 : ℝ)..999, 1 / Real.sqrt (friedmann Om0 (-1) 0 t) / (1 + t))
      ≤ age_at_z0 Om0 (-1) 0 h ∧
    age_at_z0 Om0 (-1) 0 h ≤
      1.0005 * (hubble_time 0 Om0 (-1) 0 h *
        (∫ t in (0 : ℝ)..999, 1 / Real.sqrt (friedmann Om0 (-1) 0 t) / (1 + t))) := by
  have e1 : ∫ t in (0 : ℝ)..999, 1 / Real.sqrt (friedmann Om0 (-1) 0 t) / (1 + t)
      = ∫ t in (0 : ℝ)..999, Lq Om0 t := by
    apply intervalIntegral.integral_congr
    intro x hx
    rw [uIcc_of_le (by norm_num)] at hx
    simp only [friedmann_lcdm Om0 (by linarith [hx.1] : -1 < x)]
    rfl
  have e : hubble_time 0 Om0 (-1) 0 h = Th h := by
    rw [← hubble_time_zero Om0 (-1) 0 h]; norm_num
  rw [e1, e, age0_eq]
  refine ⟨mul_le_mul_of_nonneg_left (Atrap_ge hO) (Th_pos hh).le, ?_⟩
  have := mul_le_mul_of_nonneg_left (Atrap_le hO) (Th_pos hh).le
  refine this.trans_eq ?_
  norm_num; ring

/-- C73: the Einstein–de Sitter age is two thirds of the Hubble time to within 0.1 per cent. -/
theorem C73_einstein_de_sitter {h : ℝ} (hh : 0 < h) :
    |age_at_z0 1 (-1) 0 h / hubble_time 0 1 (-1) 0 h - 2 / 3| ≤ 0.001 * (2 / 3) := by
  have e : hubble_time 0 1 (-1) 0 h = Th h := by
    rw [← hubble_time_zero 1 (-1) 0 h]; norm_num
  rw [e, age0_eq, mul_div_cancel_left₀ _ (Th_pos hh).ne']
  have h1 := Atrap_ge phys_one
  have h2 := Atrap_le phys_one
  rw [eds_integral le_rfl (by norm_num)] at h1 h2
  have h3 : Lf 1 0 = 1 := by rw [Lf_one]; norm_num
  have h4 : Lf 1 999 ≤ 1 / 31622 := by
    rw [Lf_one]
    apply one_div_le_one_div_of_le (by norm_num)
    apply Real.le_sqrt_of_sq_le; norm_num
  have h5 := Lf_pos phys_one (by norm_num : (-1 : ℝ) < 999)
  rw [h3] at h1 h2
  rw [abs_le]
  norm_num at *
  constructor <;> linarith

/-! ## The theorems applied to matter density 0.3, dynamical dark energy (-0.9, 0.2) or a cosmological constant, h = 0.7,
and redshifts 1/2 and 2 -/

theorem case_om : PhysicalOm 0.3 := ⟨by norm_num, by norm_num⟩
theorem case_np : NonPhantom (-0.9) 0.2 := by unfold NonPhantom; norm_num
theorem case_ns : NonStiff (-0.9) 0.2 := by unfold NonStiff; norm_num
theorem case_h : (0:ℝ) < 0.7 := by norm_num

example := C48_distance_duality 2 0.3 (-0.9) 0.2 0.7 (by norm_num)
example := C48_modulus_inverse (z := 2) (w0 := -0.9) (wa := 0.2) (by norm_num) case_om case_h
example := C49_positive (z := 2) (by norm_num) case_om case_h (-0.9) 0.2
example := C49_scale_with_h 2 0.3 (-0.9) 0.2 (h := 0.7) (by norm_num)
example := C51_integrands (z := 2) (by norm_num) case_om (-0.9) 0.2
example := C50_hubble_bound (z := 2) (by norm_num) case_om case_np case_h
example := C50_lookback_bound (z := 2) (by norm_num) case_om case_np case_h
example := C50_luminosity_increasing (y := 1 / 2) (z := 2) case_om case_ns case_h (by norm_num) (by norm_num)
example := C50_modulus_increasing (y := 1 / 2) (z := 2) case_om case_ns case_h (by norm_num) (by norm_num)
example := C50_comoving_increasing (y := 1 / 2) (z := 2) case_om case_h (by norm_num) (by norm_num)
example := C50_comoving_increasing (y := 1100) (z := 10 ^ 9) case_om case_h (by norm_num) (by norm_num)
example := C96_comoving_increasing_low_z (y := 1 / 2) (z := 2) case_om case_ns case_h (by norm_num) (by norm_num) (by norm_num)
example := C50_lookback_increasing (y := 1 / 2) (z := 2) case_om case_h (by norm_num) (by norm_num)
example := C50_lookback_increasing (y := 1100) (z := 10 ^ 9) case_om case_h (by norm_num) (by norm_num)
example := C50_decreasing_in_matter (z := 2) (by norm_num) case_om ⟨by norm_num, by norm_num⟩ (show (0.3:ℝ) ≤ 0.4 by norm_num)
  case_ns case_h
example := C51_friedmann (z := 2) (by norm_num) case_om (-0.9) 0.2
example := C51_dark_energy_continuity (z := 2) (by norm_num) (-0.9) 0.2
example : Ez (1 / 2) 0.3 (-0.9) 0.2 < Ez 2 0.3 (-0.9) 0.2 :=
  (C51_increasing case_om case_np (by norm_num) (by norm_num)).2.2 (by norm_num) (by norm_num)
example := C51_matter_fraction (z := 2) (by norm_num) case_om (-0.9) 0.2
example := C51_matter_fraction_increasing (y := 1 / 2) (z := 2) case_om case_ns (by norm_num) (by norm_num)
example := C51_fractions_sum_to_one (z := 2) (by norm_num) case_om (-0.9) 0.2
example : age_at_z ![1 / 2, 2] 0.3 (-0.9) 0.2 0.7 1 < age_at_z0 0.3 (-0.9) 0.2 0.7 :=
  (C52_age_today ![1 / 2, 2] 0.3 (-0.9) 0.2 0.7 1).2 (by norm_num) case_om case_h
example := C52_age_positive_partial ![1 / 2, 2] 1 (by norm_num) (by norm_num) case_om case_h
example := C52_age_decreasing case_om case_h ![1 / 2, 2000] 0 1 (by norm_num) (by norm_num)
example := C52_age_sign case_om case_h
example := C52_age_negative_everywhere (Om0 := 0.01) ⟨by norm_num, by norm_num⟩ case_h ![1 / 2, 8000] 1 (by norm_num)
example := C54_vectorised ![1 / 2, 2] 0.3 (-0.9) 0.2 0.7 1 (by norm_num)
example := C53_rho_crit (z := 2) (by norm_num) case_om (-0.9) 0.2 case_h
example := C53_delta_vir ![1 / 2, 2] 1 (by norm_num) case_om (-0.9) 0.2
example := C53_delta_vir_increasing (y := 1 / 2) (z := 2) case_om case_ns (by norm_num) (by norm_num)
example := C53_dynamical_time ![1 / 2, 2] 1 (by norm_num) case_om (-0.9) 0.2 case_h
example := C53_dynamical_time_decreasing (y := 1 / 2) (z := 2) case_om (by norm_num) case_np case_ns case_h (by norm_num) (by norm_num)
example := C54_formula (z := 2) (by norm_num) 0.3 (-0.9) 0.2 0.7
example := C54_positive (z := 2) (by norm_num) case_om case_h (-0.9) 0.2
example := C54_scale_with_h (z := 2) (by norm_num) 0.3 (-0.9) 0.2 (h := 0.7) (by norm_num)
/-- a distance with the right value and derivative at z = 2 -/
example := C54_is_volume_derivative (z := 2) (by norm_num) 0.3 (-0.9) 0.2 0.7
  (fun x => comoving_distance_to_z 2 0.3 (-0.9) 0.2 0.7 + (x - 2) * ((2.99792458e5 / (100 * 0.7)) / Ez 2 0.3 (-0.9) 0.2))
  (by simpa using (((hasDerivAt_id (2:ℝ)).sub_const 2).mul_const ((2.99792458e5 / (100 * 0.7)) / Ez 2 0.3 (-0.9) 0.2)).const_add
        (comoving_distance_to_z 2 0.3 (-0.9) 0.2 0.7))
  (by simp)
example := C73_comoving_accuracy (z := 2) (by norm_num) case_om case_h
example := C73_lookback_accuracy (z := 2) (by norm_num) case_om case_h
example := C73_age_accuracy case_om case_h
example := C73_einstein_de_sitter case_h

end Dsps.Props
