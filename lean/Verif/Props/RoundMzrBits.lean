import Verif.Props.RoundMzr
import Verif.Props.RoundCosmoBits

/-! C135 in numbers: double precision. -/
namespace Dsps.Props
open Jnp Fl Spec Dsps.Lemmas

variable {P A : Arith} {v ε : ℝ}

/-- **Specification.** the parameters lie within the bounds of `umzr.py` -/
structure MzrBox (p : Umzr.MZRParams) : Prop where
  ytp : -1 ≤ p.mzr_t0_ytp ∧ p.mzr_t0_ytp ≤ 0.25
  slope_lo : 0 ≤ p.mzr_t0_slope_lo ∧ p.mzr_t0_slope_lo ≤ 1
  slope_hi : 0 ≤ p.mzr_t0_slope_hi ∧ p.mzr_t0_slope_hi ≤ 1
  c0_y : -2 ≤ p.c0_y_at_tlook_c ∧ p.c0_y_at_tlook_c ≤ -1
  c1_y : 0 ≤ p.c1_y_at_tlook_c ∧ p.c1_y_at_tlook_c ≤ 0.5
  c0_s : -1.5 ≤ p.c0_early_time_slope ∧ p.c0_early_time_slope ≤ -0.5
  c1_s : 0 ≤ p.c1_early_time_slope ∧ p.c1_early_time_slope ≤ 0.5

lemma evolSize_mono {Y Y' E E' T T' tc : ℝ} (htc : 0 < tc) (hY0 : 0 ≤ Y) (hE0 : 0 ≤ E) (hT0 : 0 ≤ T) (hY : Y ≤ Y') (hE : E ≤ E') (hT : T ≤ T') :
    evolSize Y E T tc ≤ evolSize Y' E' T' tc := by
  have hY0' : 0 ≤ Y' := hY0.trans hY
  have hE0' : 0 ≤ E' := hE0.trans hE
  have hT0' : 0 ≤ T' := hT0.trans hT
  unfold evolSize
  gcongr <;> positivity

/-- C135: the metallicity of a galaxy of any mass between `10^7` and `10^12.5` at any time, for any parameters within the bounds: the computed
value is within `4e-11` dex of the exact one in double precision. -/
theorem C135_umzr_float64 (H : Float64 P A v) {logsm t r : ℝ} {p : Umzr.MZRParams} (hp : MzrBox p) (h1 : 7 ≤ logsm) (h2 : logsm ≤ 12.5) (ht : 0 ≤ t)
    (hr : r ∈ Rounded.umzr_model P A v logsm t p) : |r - Umzr.mzr_model logsm t p| ≤ 4e-11 := by
  have M := H.machine
  refine (C135_umzr_model M hr).trans ?_
  obtain ⟨⟨a1, a2⟩, ⟨b1, b2⟩, ⟨c1, c2⟩, ⟨d1, d2⟩, ⟨e1, e2⟩, ⟨f1, f2⟩, ⟨g1, g2⟩⟩ := hp
  have s1 : t0Size logsm 10.5 p.mzr_t0_ytp p.mzr_t0_slope_lo p.mzr_t0_slope_hi ≤ 10 := by
    unfold t0Size
    have x1 : |p.mzr_t0_ytp| ≤ 1 := abs_le.2 ⟨a1, by norm_num at a2; linarith⟩
    have x2 : |p.mzr_t0_slope_lo| ≤ 1 := abs_le.2 ⟨by linarith, b2⟩
    have x3 : |p.mzr_t0_slope_hi - p.mzr_t0_slope_lo| ≤ 1 := abs_le.2 ⟨by linarith, by linarith⟩
    have x4 : |logsm - 10.5| ≤ 3.5 := abs_le.2 ⟨by norm_num at *; linarith, by norm_num at *; linarith⟩
    have := mul_le_mul (add_le_add x2 x3) x4 (abs_nonneg _) (by norm_num)
    norm_num at this ⊢
    linarith
  have hm : |logsm| ≤ 12.5 := abs_le.2 ⟨by norm_num; linarith, h2⟩
  have s2 : mzrEvolSize logsm t p.c0_y_at_tlook_c p.c1_y_at_tlook_c 8.44 p.c0_early_time_slope p.c1_early_time_slope ≤ 1743 := by
    unfold mzrEvolSize
    have y1 : |p.c0_y_at_tlook_c| + |p.c1_y_at_tlook_c| * |logsm| ≤ 8.25 := by
      have x1 : |p.c0_y_at_tlook_c| ≤ 2 := abs_le.2 ⟨by linarith, by linarith⟩
      have x2 : |p.c1_y_at_tlook_c| ≤ 0.5 := abs_le.2 ⟨by norm_num; linarith, e2⟩
      have := mul_le_mul x2 hm (abs_nonneg _) (by norm_num)
      norm_num at this ⊢; linarith
    have y2 : |p.c0_early_time_slope| + |p.c1_early_time_slope| * |logsm| ≤ 7.75 := by
      have x1 : |p.c0_early_time_slope| ≤ 1.5 := abs_le.2 ⟨f1, by norm_num at f2 ⊢; linarith⟩
      have x2 : |p.c1_early_time_slope| ≤ 0.5 := abs_le.2 ⟨by norm_num; linarith, g2⟩
      have := mul_le_mul x2 hm (abs_nonneg _) (by norm_num)
      norm_num at this x1 ⊢; linarith
    have y3 : max (12.5 - t) 0 + 8.44 ≤ 20.94 := by
      have : max (12.5 - t) 0 ≤ 12.5 := max_le (sub_le_self _ ht) (by norm_num)
      exact (add_le_add this le_rfl).trans (by norm_num)
    refine (evolSize_mono (by norm_num) (by positivity) (by positivity) (by positivity) y1 y2 y3).trans ?_
    unfold evolSize; norm_num
  have : 22.3 * (2:ℝ) ^ (-50:ℤ) * (t0Size logsm 10.5 p.mzr_t0_ytp p.mzr_t0_slope_lo p.mzr_t0_slope_hi
      + mzrEvolSize logsm t p.c0_y_at_tlook_c p.c1_y_at_tlook_c 8.44 p.c0_early_time_slope p.c1_early_time_slope)
      ≤ 22.3 * (2:ℝ) ^ (-50:ℤ) * (10 + 1743) := mul_le_mul_of_nonneg_left (add_le_add s1 s2) (by positivity)
  refine this.trans (by norm_num)

/-- C135: the nine bounded parameters in double precision, for every `u`. -/
theorem C135_bounded_float64 (H : Float64 P A v) {u : Umzr.MZRUParams} {r : Umzr.MZRParams} (hr : r ∈ Rounded.get_bounded_mzr_params P A (Rounded.logistic v) u) :
    ∀ i, |r.toArray i - (Umzr.get_bounded_mzr_params u).toArray i| ≤ 5e-13 := fun i =>
  (C135_bounded_params H.machine hr i).trans (by norm_num)

lemma ten_rpow_half : (10:ℝ) ^ (-0.5:ℝ) ≤ 0.32 := by
  have h : ((10:ℝ) ^ (-0.5:ℝ)) ^ 2 = 1 / 10 := by
    rw [← Real.rpow_natCast, ← Real.rpow_mul (by norm_num)]; norm_num
  have h0 : 0 ≤ (10:ℝ) ^ (-0.5:ℝ) := by positivity
  nlinarith

lemma ten_rpow_07 : (10:ℝ) ^ (0.7:ℝ) ≤ 5.02 := by
  have h : ((10:ℝ) ^ (0.7:ℝ)) ^ 10 = 10 ^ 7 := by
    rw [← Real.rpow_natCast, ← Real.rpow_mul (by norm_num)]; norm_num
  refine le_of_pow_le_pow_left₀ (n := 10) (by norm_num) (by norm_num) ?_
  rw [h]; norm_num

/-- **Specification.** one of the calibrations of the surviving mass shipped with the package -/
def IsSurvivingCalibration (p : SurvivingMstar.Params) : Prop :=
  p = SurvivingMstar.DEFAULT_PARAMS ∨ p = SurvivingMstar.SALPETER_PARAMS ∨ p = SurvivingMstar.CHABRIER_PARAMS ∨ p = SurvivingMstar.KROUPA_PARAMS ∨
    p = SurvivingMstar.VAN_DOKKUM_PARAMS

/-- **Specification.** one of the calibrations of the remnant mass shipped with the package -/
def IsRemnantCalibration (p : RemnantMass.Params) : Prop :=
  p = RemnantMass.DEFAULT_PARAMS ∨ p = RemnantMass.SALPETER_PARAMS ∨ p = RemnantMass.CHABRIER_PARAMS ∨ p = RemnantMass.KROUPA_PARAMS ∨
    p = RemnantMass.VAN_DOKKUM_PARAMS

/-- C135: the surviving fraction of every shipped calibration, for ages between `10^5` and `10^10.5` years, is computed to `2e-12` in double
precision. -/
theorem C135_surviving_float64 (H : Float64 P A v) {x r : ℝ} {p q : SurvivingMstar.Params} (hp : IsSurvivingCalibration p) (h1 : 5 ≤ x)
    (h2 : x ≤ 10.5) (hq : q ∈ Rounded.litSurviving P A p) (hr : r ∈ Rounded.surviving_mstar A v x q) :
    |r - SurvivingMstar.surviving_mstar x p| ≤ 2e-12 := by
  have key : p.b = 8 ∧ p.lgk1 = -0.5 ∧ p.e = 0.08 ∧ p.f = 6.5 ∧ p.lgk2 = 0.7 ∧ p.h = 0.005 ∧ 0 ≤ p.a ∧ p.a ≤ 0.238 ∧ 0 ≤ p.d ∧ p.d ≤ 0.156 := by
    rcases hp with rfl | rfl | rfl | rfl | rfl <;>
      simp only [SurvivingMstar.DEFAULT_PARAMS, SurvivingMstar.SALPETER_PARAMS, SurvivingMstar.CHABRIER_PARAMS, SurvivingMstar.KROUPA_PARAMS,
        SurvivingMstar.VAN_DOKKUM_PARAMS] <;> norm_num
  obtain ⟨eb, el, ee, ef, el2, eh, a0, a1, d0, d1⟩ := key
  have M := H.machine
  refine (C135_surviving M (by rw [el]; norm_num [abs_of_neg]) (by rw [el2]; norm_num [abs_of_pos]) hq hr).trans ?_
  have s : returnedSize x p ≤ 57.5 := by
    unfold returnedSize ageSlopeSize
    rw [eb, el, ee, ef, el2, eh, abs_of_nonneg a0, abs_of_nonneg d0]
    have k1 := ten_rpow_half
    have k2 := ten_rpow_07
    have x1 : |x - 8| ≤ 3 := abs_le.2 ⟨by linarith, by norm_num at h2; linarith⟩
    have r1 : p.d + (p.d + |0.08|) * (1 + 10 ^ (-0.5:ℝ) * |8| / 4) ≤ 0.156 + (0.156 + 0.08) * (1 + 0.32 * 8 / 4) := by
      rw [abs_of_pos (by norm_num : (0:ℝ) < 0.08), abs_of_pos (by norm_num : (0:ℝ) < 8)]; gcongr
    have r2 : p.a + (p.d + (p.d + |0.08|) * (1 + 10 ^ (-0.5:ℝ) * |8| / 4)) * (|x - 8| + |8|)
        ≤ 0.238 + (0.156 + (0.156 + 0.08) * (1 + 0.32 * 8 / 4)) * (3 + 8) := by
      refine add_le_add a1 (mul_le_mul r1 (add_le_add x1 (by norm_num [abs_of_pos])) (by positivity) (by norm_num))
    have r3 : 1 + (10:ℝ) ^ (0.7:ℝ) * |6.5| / 4 ≤ 1 + 5.02 * 6.5 / 4 := by
      rw [abs_of_pos (by norm_num : (0:ℝ) < 6.5)]; gcongr
    have r4 := mul_le_mul (add_le_add r2 (le_of_eq (abs_of_pos (by norm_num : (0:ℝ) < 0.005)))) r3 (by positivity) (by norm_num)
    have r5 : |(0.005:ℝ)| = 0.005 := abs_of_pos (by norm_num)
    rw [r5] at r4 ⊢
    refine (add_le_add_right r4 _).trans ?_
    norm_num
  have : 36.4 * (2:ℝ) ^ (-50:ℤ) * (1 + returnedSize x p) ≤ 36.4 * (2:ℝ) ^ (-50:ℤ) * (1 + 57.5) :=
    mul_le_mul_of_nonneg_left (by linarith) (by positivity)
  exact this.trans (by norm_num)

/-- C135: the remnant mass of every shipped calibration, for the same ages, is computed to a relative accuracy of `2e-11` in double precision. -/
theorem C135_remnant_float64 (H : Float64 P A v) {x r : ℝ} {p q : RemnantMass.Params} (hp : IsRemnantCalibration p) (h1 : 5 ≤ x)
    (h2 : x ≤ 10.5) (hq : q ∈ Rounded.litRemnant P A p) (hr : r ∈ Rounded.remnant_mass A v x q) :
    |r - RemnantMass.remnant_mass x p| ≤ 2e-11 * RemnantMass.remnant_mass x p := by
  have key : p.b = 7 ∧ p.lgk1 = 1 ∧ p.d = 1.3 ∧ p.e = 0.2 ∧ -1.67 ≤ p.a ∧ p.a ≤ 0 := by
    rcases hp with rfl | rfl | rfl | rfl | rfl <;>
      simp only [RemnantMass.DEFAULT_PARAMS, RemnantMass.SALPETER_PARAMS, RemnantMass.CHABRIER_PARAMS, RemnantMass.KROUPA_PARAMS,
        RemnantMass.VAN_DOKKUM_PARAMS] <;> norm_num
  obtain ⟨eb, el, ed, ee, a0, a1⟩ := key
  have M := H.machine
  have s : ageSlopeSize x p.a p.b (10 ^ p.lgk1) p.d p.e ≤ 307 := by
    unfold ageSlopeSize
    rw [eb, el, ed, ee, Real.rpow_one]
    have x1 : |x - 7| ≤ 3.5 := abs_le.2 ⟨by norm_num; linarith, by norm_num at h2 ⊢; linarith⟩
    have x2 : |p.a| ≤ 1.67 := abs_le.2 ⟨a0, by norm_num; linarith⟩
    rw [abs_of_pos (by norm_num : (0:ℝ) < 1.3), abs_of_pos (by norm_num : (0:ℝ) < 0.2), abs_of_pos (by norm_num : (0:ℝ) < 7)]
    norm_num at x1 x2 ⊢
    linarith
  have hS : 0 ≤ ageSlopeSize x p.a p.b (10 ^ p.lgk1) p.d p.e := by unfold ageSlopeSize; positivity
  have hk : (49.1 * ageSlopeSize x p.a p.b (10 ^ p.lgk1) p.d p.e + 1.1) * (2:ℝ) ^ (-50:ℤ) ≤ (49.1 * 307 + 1.1) * (2:ℝ) ^ (-50:ℤ) :=
    mul_le_mul_of_nonneg_right (by linarith) (by positivity)
  have hR : 0 ≤ RemnantMass.remnant_mass x p := by
    unfold RemnantMass.remnant_mass RemnantMass.log_remnant_mass Jnp.exp10; positivity
  refine (C135_remnant M (by rw [el]; simp) (hk.trans (by norm_num)) hq hr).trans (mul_le_mul_of_nonneg_right ?_ hR)
  rw [mul_assoc]
  refine (mul_le_mul_of_nonneg_left hk (by norm_num)).trans ?_
  norm_num

end Dsps.Props
