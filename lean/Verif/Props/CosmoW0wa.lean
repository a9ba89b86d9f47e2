import Verif.Lemmas.W0wa
import Verif.Props.Cosmology
import Verif.Cases

/-! C96: distances and times in every flat w0wa cosmology whose dark energy is neither phantom nor stiff. -/
namespace Dsps.Props
open Jnp Dsps.Utils Dsps.FlatWcdm Dsps.Lemmas Spec Set

variable {n : ℕ} {y z Om0 w0 wa h : ℝ}

theorem Th_eq_w (Om0 w0 wa h : ℝ) : hubble_time 0 Om0 w0 wa h = Th h := by
  rw [← hubble_time_zero Om0 w0 wa h]; norm_num

/-- C96: the comoving distance strictly increases with redshift up to redshift 40. -/
theorem C96_comoving_increasing (hO : PhysicalOm Om0) (hp : NonPhantom w0 wa) (hs : NonStiff w0 wa) (hh : 0 < h)
    (hy : 0 ≤ y) (hyz : y < z) (hz : z ≤ 40) :
    comoving_distance_to_z y Om0 w0 wa h < comoving_distance_to_z z Om0 w0 wa h := by
  rw [comoving_eq, comoving_eq]
  exact mul_lt_mul_of_pos_right
    (Dtrap_strictMonoOn_w ⟨hO, hp, hs⟩ ⟨hy, by linarith⟩ ⟨by linarith, hz⟩ hyz) (CK_pos hh)

/-- C96: the lookback time strictly increases with redshift up to redshift 22. -/
theorem C96_lookback_increasing (hO : PhysicalOm Om0) (hp : NonPhantom w0 wa) (hs : NonStiff w0 wa) (hh : 0 < h)
    (hy : 0 ≤ y) (hyz : y < z) (hz : z ≤ 22) :
    lookback_to_z y Om0 w0 wa h < lookback_to_z z Om0 w0 wa h := by
  rw [lookback_eq, lookback_eq]
  exact mul_lt_mul_of_pos_left
    (Ttrap_strictMonoOn_w ⟨hO, hp, hs⟩ ⟨hy, by linarith⟩ ⟨by linarith, hz⟩ hyz) (Th_pos hh)

/-- C96: the age strictly decreases with redshift up to redshift 22: for any two entries of a redshift array. -/
theorem C96_age_decreasing (hO : PhysicalOm Om0) (hp : NonPhantom w0 wa) (hs : NonStiff w0 wa) (hh : 0 < h)
    (zs : Fin n → ℝ) (i j : Fin n) (hi : 0 ≤ zs i) (hij : zs i < zs j) (hj : zs j ≤ 22) :
    age_at_z zs Om0 w0 wa h j < age_at_z zs Om0 w0 wa h i := by
  have h1 := C52_age_plus_lookback zs Om0 w0 wa h i
  have h2 := C52_age_plus_lookback zs Om0 w0 wa h j
  have h3 := C96_lookback_increasing hO hp hs hh hi hij hj
  linarith

/-- C96: the age is positive up to redshift 35. -/
theorem C96_age_positive (hO : PhysicalOm Om0) (hp : NonPhantom w0 wa) (hs : NonStiff w0 wa) (hh : 0 < h)
    (zs : Fin n → ℝ) (i : Fin n) (hz : 0 ≤ zs i) (hz1 : zs i ≤ 35) : 0 < age_at_z zs Om0 w0 wa h i := by
  have hA : WAdm Om0 w0 wa := ⟨hO, hp, hs⟩
  have hgap : Ttrap (zs i) Om0 w0 wa < Atrap Om0 w0 wa := by
    set z := zs i
    have h1 := Atrap_ge_w hA
    have h2 := (Ttrap_quad_w hA hz).2
    have h3 := intervalIntegral.integral_add_adjacent_intervals (Wq_intble hA le_rfl hz)
      (Wq_intble hA hz (by norm_num : (0 : ℝ) ≤ 999))
    have h4 : ∫ t in (z : ℝ)..999, Lq 1 t ≤ ∫ t in (z : ℝ)..999, Wq Om0 w0 wa t := by
      apply intervalIntegral.integral_mono_on (by linarith) (Lq_int phys_one hz (by norm_num))
        (Wq_intble hA hz (by norm_num))
      intro x hx
      refine le_trans (le_of_eq ?_) (Wq_ge hA (by linarith [hx.1]))
      rw [Lq_eq, Lf_one]; unfold Lv; ring
    rw [eds_integral hz (by norm_num)] at h4
    have h5 : (1 : ℝ) / 216 ≤ Lf 1 z := by
      rw [Lf_one]
      apply one_div_le_one_div_of_le (Real.sqrt_pos.2 (by positivity))
      rw [show (216 : ℝ) = Real.sqrt (216 ^ 2) by rw [Real.sqrt_sq]; norm_num]
      apply Real.sqrt_le_sqrt
      calc (1 + z) ^ 3 ≤ 36 ^ 3 := pow_le_pow_left₀ (by linarith) (by linarith) 3
        _ ≤ _ := by norm_num
    have h6 : Lf 1 999 ≤ 1 / 31622 := by
      rw [Lf_one]
      apply one_div_le_one_div_of_le (by norm_num)
      apply Real.le_sqrt_of_sq_le; norm_num
    have h7 : 5 / 8 * (z / 511) ^ 2 ≤ 5 / 8 * (35 / 511) ^ 2 := by gcongr
    norm_num at h7 h5 h6
    linarith
  have := C52_age_plus_lookback zs Om0 w0 wa h i
  rw [age0_eq, lookback_eq] at this
  have := mul_lt_mul_of_pos_left hgap (Th_pos hh)
  linarith

/-- C96: the comoving distance differs from `(c/H0) ∫₀ᶻ dz'/E(z')` by at most `(c/H0) (21/16) (z/255)² z/(1+z)`, at
every redshift. -/
theorem C96_comoving_accuracy (hO : PhysicalOm Om0) (hp : NonPhantom w0 wa) (hs : NonStiff w0 wa) (hh : 0 < h)
    (hz : 0 ≤ z) :
    |comoving_distance_to_z z Om0 w0 wa h
      - (2.99792458e5 / (100 * h)) * ∫ t in (0 : ℝ)..z, 1 / Real.sqrt (friedmann Om0 w0 wa t)|
      ≤ (2.99792458e5 / (100 * h)) * (21 / 16 * (z / 255) ^ 2 * (z / (1 + z))) := by
  have e2 : C_SPEED * 1e-5 / h = 2.99792458e5 / (100 * h) := by unfold C_SPEED; field_simp; norm_num
  rw [comoving_eq, e2, mul_comm (Dtrap z Om0 w0 wa), ← mul_sub, abs_mul]
  have hp' : 0 < (2.99792458e5 : ℝ) / (100 * h) := by positivity
  rw [abs_of_pos hp']
  exact mul_le_mul_of_nonneg_left (Dtrap_quad_w ⟨hO, hp, hs⟩ hz) hp'.le

/-- C96: the lookback time never falls short of the exact integral and exceeds it by at most `t_H (5/8) (z/511)²`. -/
theorem C96_lookback_accuracy (hO : PhysicalOm Om0) (hp : NonPhantom w0 wa) (hs : NonStiff w0 wa) (hh : 0 < h)
    (hz : 0 ≤ z) :
    hubble_time 0 Om0 w0 wa h * (∫ t in (0 : ℝ)..z, 1 / Real.sqrt (friedmann Om0 w0 wa t) / (1 + t))
      ≤ lookback_to_z z Om0 w0 wa h ∧
    lookback_to_z z Om0 w0 wa h ≤
      hubble_time 0 Om0 w0 wa h * ((∫ t in (0 : ℝ)..z, 1 / Real.sqrt (friedmann Om0 w0 wa t) / (1 + t))
        + 5 / 8 * (z / 511) ^ 2) := by
  rw [Th_eq_w, lookback_eq]
  have := Ttrap_quad_w (⟨hO, hp, hs⟩ : WAdm Om0 w0 wa) hz
  exact ⟨mul_le_mul_of_nonneg_left this.1 (Th_pos hh).le, mul_le_mul_of_nonneg_left this.2 (Th_pos hh).le⟩

/-- C96: the age today is the exact integral out to redshift 999 to within 0.05 per cent. -/
theorem C96_age_accuracy (hO : PhysicalOm Om0) (hp : NonPhantom w0 wa) (hs : NonStiff w0 wa) (hh : 0 < h) :
    hubble_time 0 Om0 w0 wa h * (∫ t in (0 : ℝ)..999, 1 / Real.sqrt (friedmann Om0 w0 wa t) / (1 + t))
      ≤ age_at_z0 Om0 w0 wa h ∧
    age_at_z0 Om0 w0 wa h ≤
      1.0005 * (hubble_time 0 Om0 w0 wa h *
        (∫ t in (0 : ℝ)..999, 1 / Real.sqrt (friedmann Om0 w0 wa t) / (1 + t))) := by
  have hA : WAdm Om0 w0 wa := ⟨hO, hp, hs⟩
  rw [Th_eq_w, age0_eq]
  refine ⟨mul_le_mul_of_nonneg_left (Atrap_ge_w hA) (Th_pos hh).le, ?_⟩
  have := mul_le_mul_of_nonneg_left (Atrap_le_w hA) (Th_pos hh).le
  refine this.trans_eq ?_
  norm_num
  unfold Wq
  simp only [one_div]
  ring

/-- A thawing dark energy `w0 = -0.9, wa = 0.4` is in scope, with both parameters away from LCDM. -/
example : PhysicalOm 0.3 ∧ NonPhantom (-0.9) 0.4 ∧ NonStiff (-0.9) 0.4 := by
  unfold PhysicalOm NonPhantom NonStiff; norm_num

/-- the theorems applied: matter density 0.3, dark energy (-0.9, 0.2), h = 0.7, redshifts 1/2 and 2 -/
example := C96_comoving_increasing (y := 1 / 2) (z := 2) case_om case_np case_ns case_h (by norm_num) (by norm_num) (by norm_num)
example := C96_lookback_increasing (y := 1 / 2) (z := 2) case_om case_np case_ns case_h (by norm_num) (by norm_num) (by norm_num)
example := C96_age_decreasing case_om case_np case_ns case_h ![1 / 2, 2] 0 1 (by norm_num) (by norm_num) (by norm_num)
example := C96_age_positive case_om case_np case_ns case_h ![1 / 2, 2] 1 (by norm_num) (by norm_num)
example := C96_comoving_accuracy (z := 2) case_om case_np case_ns case_h (by norm_num)
example := C96_lookback_accuracy (z := 2) case_om case_np case_ns case_h (by norm_num)
example := C96_age_accuracy case_om case_np case_ns case_h

end Dsps.Props
