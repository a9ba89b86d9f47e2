import Verif.Model.Imf
import Verif.Lemmas.SigSlope
import Mathlib.Analysis.Complex.ExponentialBounds
import Verif.Cases

/-! Properties C37–C38: surviving and remnant mass fractions. -/
namespace Dsps.Props
open Jnp Dsps.Utils Dsps.Lemmas

/-! ## C38 -/

/-- One of the four shipped calibrations (or the default). -/
def RemnantShipped (p : RemnantMass.Params) : Prop :=
  p = RemnantMass.SALPETER_PARAMS ∨ p = RemnantMass.CHABRIER_PARAMS ∨ p = RemnantMass.KROUPA_PARAMS ∨
    p = RemnantMass.VAN_DOKKUM_PARAMS ∨ p = RemnantMass.DEFAULT_PARAMS

theorem remnant_shape {p : RemnantMass.Params} (hp : RemnantShipped p) :
    p.b = 7 ∧ p.lgk1 = 1 ∧ p.d = 1.3 ∧ p.e = 0.2 ∧ p.a ≤ -1.4 := by
  rcases hp with rfl | rfl | rfl | rfl | rfl <;>
    norm_num [RemnantMass.SALPETER_PARAMS, RemnantMass.CHABRIER_PARAMS, RemnantMass.KROUPA_PARAMS,
      RemnantMass.VAN_DOKKUM_PARAMS, RemnantMass.DEFAULT_PARAMS]

theorem remnant_exponent_strictMono {p : RemnantMass.Params} (hp : RemnantShipped p) :
    StrictMono (fun x => sig_slope x p.b p.a p.b (exp10 p.lgk1) p.d p.e) := by
  obtain ⟨hb, hk, hd, he, -⟩ := remnant_shape hp
  refine sig_slope_strictMono _ (by rw [he]; norm_num) (by rw [hd, he]; norm_num) ?_
  rw [hd, he, sub_self, mul_zero]
  have h1 : Real.log (1.3 / 0.2) ≤ Real.log (2 ^ 3) := Real.log_le_log (by norm_num) (by norm_num)
  rw [Real.log_pow] at h1
  have := Real.log_two_lt_d9
  norm_num at *
  linarith

/-- C38: for every shipped calibration the remnant fraction is positive and strictly increasing with age. -/
theorem C38_remnant_increasing (p : RemnantMass.Params) (hp : RemnantShipped p) :
    (∀ x, 0 < RemnantMass.remnant_mass x p) ∧ StrictMono (fun x => RemnantMass.remnant_mass x p) := by
  refine ⟨fun x => Real.rpow_pos_of_pos (by norm_num) _, fun x y h => ?_⟩
  exact Real.rpow_lt_rpow_of_exponent_lt (by norm_num) (remnant_exponent_strictMono hp h)

/-- case: the Kroupa calibration -/
example := C38_remnant_increasing RemnantMass.KROUPA_PARAMS (Or.inr (Or.inr (Or.inl rfl)))

/-- C38: for every shipped calibration the remnant fraction is below 1 for every age up to 10^13 yr. -/
theorem C38_remnant_lt_one (p : RemnantMass.Params) (hp : RemnantShipped p) (x : ℝ) (hx : x ≤ 13) :
    RemnantMass.remnant_mass x p < 1 := by
  have hmono := (remnant_exponent_strictMono hp).monotone hx
  obtain ⟨hb, hk, hd, he, ha⟩ := remnant_shape hp
  refine Real.rpow_lt_one_of_one_lt_of_neg (by norm_num) (lt_of_le_of_lt hmono ?_)
  have h10 : exp10 p.lgk1 = 10 := by rw [hk]; simp [exp10]
  simp only [sig_slope, Utils.sigmoid, hb, hd, he, h10]
  have hσ : 0.99 ≤ Jnp.sigmoid (10 * (13 - 7)) := by
    unfold Jnp.sigmoid
    have h1 : Real.exp (-(10 * (13 - 7))) ≤ 1 / 61 := by
      rw [Real.exp_neg, ← one_div]
      apply one_div_le_one_div_of_le (by norm_num)
      have := Real.add_one_le_exp (10 * (13 - 7) : ℝ)
      linarith
    have : Real.exp (-(10 * (13 - 7))) ≤ 1 / 100 := by
      have h2 : Real.exp (-(10 * (13 - 7))) = Real.exp (-30) * Real.exp (-30) := by rw [← Real.exp_add]; norm_num
      have h3 : Real.exp (-30) ≤ 1 / 31 := by
        rw [Real.exp_neg, ← one_div]
        apply one_div_le_one_div_of_le (by norm_num)
        have := Real.add_one_le_exp (30 : ℝ)
        linarith
      have h4 := Real.exp_pos (-30)
      rw [h2]
      nlinarith
    rw [le_div_iff₀ (by positivity)]
    linarith
  norm_num at *
  nlinarith

/-- case: the Kroupa calibration at the age of the universe -/
example := C38_remnant_lt_one RemnantMass.KROUPA_PARAMS (Or.inr (Or.inr (Or.inl rfl))) 10.1 (by norm_num)

example : RemnantShipped RemnantMass.KROUPA_PARAMS ∧ (10.1:ℝ) ≤ 13 := ⟨Or.inr (Or.inr (Or.inl rfl)), by norm_num⟩

/-- C38: `remnant_mass` at the pivot age 10^b yr is exactly 10^a for any parameters. -/
theorem C38_remnant_pivot (p : RemnantMass.Params) : RemnantMass.remnant_mass p.b p = (10:ℝ) ^ p.a := by
  simp [RemnantMass.remnant_mass, RemnantMass.log_remnant_mass, sig_slope, exp10]

/-- The four published remnant-mass calibrations, IMF by IMF: `log10` of the remnant fraction at 10^7 yr. -/
theorem C38_calibrations (x : ℝ) :
    let curve : ℝ → ℝ := fun a => (10:ℝ) ^ (a + (1.3 - 1.1 / (1 + Real.exp (-(10 * (x - 7))))) * (x - 7))
    RemnantMass.remnant_mass x RemnantMass.SALPETER_PARAMS = curve (-1.67) ∧
    RemnantMass.remnant_mass x RemnantMass.CHABRIER_PARAMS = curve (-1.42) ∧
    RemnantMass.remnant_mass x RemnantMass.KROUPA_PARAMS = curve (-1.45) ∧
    RemnantMass.remnant_mass x RemnantMass.VAN_DOKKUM_PARAMS = curve (-1.4) ∧
    RemnantMass.remnant_mass x = curve (-1.42) := by
  have key : ∀ a : ℝ, RemnantMass.remnant_mass x { RemnantMass.DEFAULT_PARAMS with a := a } =
      (10:ℝ) ^ (a + (1.3 - 1.1 / (1 + Real.exp (-(10 * (x - 7))))) * (x - 7)) := by
    intro a
    simp only [RemnantMass.remnant_mass, RemnantMass.log_remnant_mass, RemnantMass.DEFAULT_PARAMS, sig_slope, Utils.sigmoid,
      Jnp.sigmoid, exp10, Real.rpow_one]
    congr 1
    ring
  exact ⟨key _, key _, key _, key _, key _⟩

/-! ## C37 -/

/-- One of the four shipped calibrations (or the default). -/
def SurvivingShipped (p : SurvivingMstar.Params) : Prop :=
  p = SurvivingMstar.SALPETER_PARAMS ∨ p = SurvivingMstar.CHABRIER_PARAMS ∨ p = SurvivingMstar.KROUPA_PARAMS ∨
    p = SurvivingMstar.VAN_DOKKUM_PARAMS ∨ p = SurvivingMstar.DEFAULT_PARAMS

theorem exp10_07 : 5 ≤ exp10 0.7 ∧ exp10 0.7 ≤ 5.02 := by
  have hpos : 0 < exp10 0.7 := Real.rpow_pos_of_pos (by norm_num) _
  have h : exp10 0.7 ^ 10 = 10 ^ 7 := by
    unfold exp10
    rw [← Real.rpow_natCast, ← Real.rpow_mul (by norm_num)]
    norm_num
  constructor
  · by_contra hc
    have : exp10 0.7 ^ 10 < 5 ^ 10 := by gcongr; exact not_le.mp hc
    rw [h] at this; norm_num at this
  · by_contra hc
    have : (5.02:ℝ) ^ 10 < exp10 0.7 ^ 10 := by gcongr; exact not_le.mp hc
    rw [h] at this; norm_num at this

theorem exp10_m05 : 0.316 ≤ exp10 (-0.5) ∧ exp10 (-0.5) ≤ 0.317 := by
  have hpos : 0 < exp10 (-0.5) := Real.rpow_pos_of_pos (by norm_num) _
  have h : exp10 (-0.5) ^ 2 = 0.1 := by
    unfold exp10
    rw [← Real.rpow_natCast, ← Real.rpow_mul (by norm_num)]
    norm_num
  constructor
  · by_contra hc
    have : exp10 (-0.5) ^ 2 < 0.316 ^ 2 := by gcongr; exact not_le.mp hc
    rw [h] at this; norm_num at this
  · by_contra hc
    have : (0.317:ℝ) ^ 2 < exp10 (-0.5) ^ 2 := by gcongr; exact not_le.mp hc
    rw [h] at this; norm_num at this

theorem sigmoid_le_exp (u : ℝ) : Jnp.sigmoid u ≤ Real.exp u := by
  rw [sigmoid_eq]
  have := Real.exp_pos u
  rw [div_le_iff₀ (by positivity)]
  nlinarith

/-- A negative plateau value is suppressed by the sigmoid: if `z ≥ a - S y` then the returned mass stays above zero. -/
theorem returned_nonneg_aux {z a S y h K : ℝ} (hS : 0 < S) (hh : 0 < h) (hK : 0 < K) (hz : a - S * y ≤ z)
    (hnum : S * Real.exp (K * (1.5 - (a - h) / S)) ≤ h * K * Real.exp 1) :
    0 ≤ h + (z - h) * Jnp.sigmoid (K * (1.5 - y)) := by
  have hσ := sigmoid_pos (K * (1.5 - y))
  by_cases hzh : h ≤ z
  · have := mul_nonneg (sub_nonneg.mpr hzh) hσ.le
    linarith
  · push Not at hzh
    set t := y - (a - h) / S with ht
    have hst : S * t = S * y - (a - h) := by rw [ht]; field_simp
    have h1 : -(S * t) ≤ z - h := by rw [hst]; linarith
    have htp : 0 < S * t := by linarith
    have h2 := sigmoid_le_exp (K * (1.5 - y))
    have e : K * (1.5 - y) = K * (1.5 - (a - h) / S) + (-(K * t)) := by rw [ht]; ring
    have h3 : K * t * Real.exp 1 ≤ Real.exp (K * t) := by
      have := Real.add_one_le_exp (K * t - 1)
      rw [Real.exp_sub, sub_add_cancel, le_div_iff₀ (Real.exp_pos 1)] at this
      exact this
    have h4 : S * t * Real.exp (K * (1.5 - y)) ≤ h := by
      rw [e, Real.exp_add, Real.exp_neg]
      have hp := Real.exp_pos (K * t)
      have htt : 0 < t := pos_of_mul_pos_right htp hS.le
      have : S * Real.exp (K * (1.5 - (a - h) / S)) * t ≤ h * K * Real.exp 1 * t :=
        mul_le_mul_of_nonneg_right hnum htt.le
      have h5 : S * t * Real.exp (K * (1.5 - (a - h) / S)) ≤ h * Real.exp (K * t) := by nlinarith
      have : S * t * (Real.exp (K * (1.5 - (a - h) / S)) * (Real.exp (K * t))⁻¹) =
          S * t * Real.exp (K * (1.5 - (a - h) / S)) / Real.exp (K * t) := by field_simp
      rw [this, div_le_iff₀ hp]
      exact h5
    have h6 : S * t * Jnp.sigmoid (K * (1.5 - y)) ≤ S * t * Real.exp (K * (1.5 - y)) :=
      mul_le_mul_of_nonneg_left h2 htp.le
    nlinarith

theorem sigmoid_low_age {k y : ℝ} (hk0 : 0 < k) (hk : k ≤ 0.317) (hy : 0 ≤ y) (hy2 : y ≤ 2.5) :
    1 / 2 ≤ Jnp.sigmoid (k * y) ∧ Jnp.sigmoid (k * y) ≤ 0.69 := by
  constructor
  · rw [← sigmoid_zero]; exact sigmoid_strictMono.monotone (mul_nonneg hk0.le hy)
  · have h1 : k * y ≤ 0.7925 := by nlinarith
    refine (sigmoid_strictMono.monotone h1).trans ?_
    rw [sigmoid_eq]
    have h2 : Real.exp 0.7925 * Real.exp 0.2075 = Real.exp 1 := by rw [← Real.exp_add]; norm_num
    have h3 := Real.quadratic_le_exp_of_nonneg (x := 0.2075) (by norm_num)
    have h4 := Real.exp_one_lt_d9
    have h5 := Real.exp_pos 0.7925
    have h6 : Real.exp 0.7925 ≤ 2.22 := by
      by_contra hc
      push Not at hc
      nlinarith
    rw [div_le_iff₀ (by positivity)]
    linarith

theorem exp_neg_le_inv {u : ℝ} (hu : 0 ≤ u) : Real.exp (-u) ≤ 1 / (1 + u) := by
  rw [Real.exp_neg, ← one_div]
  apply one_div_le_one_div_of_le (by linarith)
  linarith [Real.add_one_le_exp u]

/-- Old-age side of the lower bound: beyond 2.5 dex below the pivot the sigmoid has died off. -/
theorem returned_young {K a s y : ℝ} (hK : 5 ≤ K) (ha1 : 0.13 ≤ a) (hs0 : 0 ≤ s) (hs1 : s ≤ 0.156) (h1 : 2.5 < y) :
    0 ≤ 0.005 + ((a - s * y) - 0.005) * Jnp.sigmoid (K * (1.5 - y)) := by
  obtain ⟨w, rfl⟩ : ∃ w, y = w + 1.5 := ⟨y - 1.5, by ring⟩
  have hw1 : 1 ≤ w := by linarith
  have hw2 : K * (1.5 - (w + 1.5)) = -(K * w) := by ring
  rw [hw2]
  have h2 := sigmoid_le_exp (-(K * w))
  have h0 := sigmoid_pos (-(K * w))
  have h3 : Real.exp (-(K * w)) ≤ Real.exp (-(5 * w)) := by
    apply Real.exp_le_exp.mpr
    have := mul_le_mul_of_nonneg_right hK (by linarith : (0:ℝ) ≤ w)
    linarith
  have h4 : 53 * w ≤ Real.exp (5 * w) := by
    have e : Real.exp (5 * w) = Real.exp 1 ^ 5 * Real.exp (5 * (w - 1)) := by
      rw [← Real.exp_nat_mul, ← Real.exp_add]
      congr 1
      push_cast
      ring
    have h5 := Real.add_one_le_exp (5 * (w - 1))
    have h6 : (2.7:ℝ) ^ 5 ≤ Real.exp 1 ^ 5 := by
      gcongr; linarith [Real.exp_one_gt_d9]
    have h7 : (53:ℝ) ≤ Real.exp 1 ^ 5 := le_trans (by norm_num) h6
    rw [e]
    exact mul_le_mul h7 (by linarith) (by linarith) (by positivity)
  have h5 : Real.exp (-(5 * w)) * (53 * w) ≤ 1 := by
    rw [Real.exp_neg, inv_mul_le_iff₀ (Real.exp_pos _)]; linarith
  have h6 : Jnp.sigmoid (-(K * w)) * (53 * w) ≤ 1 :=
    (mul_le_mul_of_nonneg_right (h2.trans h3) (by linarith)).trans h5
  have h7 : -(0.265 * w) ≤ a - s * (w + 1.5) - 0.005 := by
    have := mul_le_mul_of_nonneg_right hs1 (by linarith : (0:ℝ) ≤ w + 1.5)
    linarith
  have h8 := mul_le_mul_of_nonneg_right h7 h0.le
  nlinarith

/-- Middle range of the lower bound. -/
theorem returned_mid {K a s S y : ℝ} (hK : 5 ≤ K) (hS0 : 0 < S) (hsS : s ≤ S) (hgap : 1.7 ≤ (a - 0.005) / S)
    (hS3 : S ≤ 0.1326) (hy : 0 < y) : 0 ≤ 0.005 + ((a - s * y) - 0.005) * Jnp.sigmoid (K * (1.5 - y)) := by
  have hsy := mul_le_mul_of_nonneg_right hsS hy.le
  refine returned_nonneg_aux (a := a) hS0 (by norm_num) (by linarith) (by linarith) ?_
  have e : K * (1.5 - (a - 0.005) / S) = -(K * ((a - 0.005) / S - 1.5)) := by ring
  rw [e]
  have hge : 1 ≤ K * ((a - 0.005) / S - 1.5) := by
    have : 0.2 ≤ (a - 0.005) / S - 1.5 := by linarith
    nlinarith
  have h2 := exp_neg_le_inv (u := K * ((a - 0.005) / S - 1.5)) (by linarith)
  have h3 : 1 / (1 + K * ((a - 0.005) / S - 1.5)) ≤ 1 / 2 := by
    apply one_div_le_one_div_of_le (by norm_num)
    linarith
  have h4 := Real.exp_one_gt_d9
  have h5 : S * Real.exp (-(K * ((a - 0.005) / S - 1.5))) ≤ 0.1326 * (1 / 2) :=
    mul_le_mul hS3 (h2.trans h3) (Real.exp_pos _).le (by norm_num)
  have h6 : 5 * 2.7 ≤ K * Real.exp 1 := mul_le_mul hK (by linarith) (by norm_num) (by linarith)
  nlinarith

/-- Core of C37 in terms of the slope bounds. -/
theorem returned_core {a d S x : ℝ} (ha1 : 0.13 ≤ a) (ha2 : a ≤ 0.238) (hd1 : 0.055 ≤ d) (hd2 : d ≤ 0.156)
    (hS0 : 0 < S) (hS1 : 0.08 + (d - 0.08) * 0.69 ≤ S) (hS2 : 0.08 + (d - 0.08) / 2 ≤ S)
    (hgap : 1.7 ≤ (a - 0.005) / S) (hS3 : S ≤ 0.1326) (hx : x ≤ 10.5) :
    0 ≤ SurvivingMstar.returned_mass x a 8.0 (-0.5) d 0.08 6.5 0.7 0.005 ∧
    SurvivingMstar.returned_mass x a 8.0 (-0.5) d 0.08 6.5 0.7 0.005 ≤ 1 := by
  obtain ⟨hK1, hK2⟩ := exp10_07
  obtain ⟨hk1, hk2⟩ := exp10_m05
  obtain ⟨y, rfl⟩ : ∃ y, x = 8 - y := ⟨8 - x, by ring⟩
  have hred : SurvivingMstar.returned_mass (8 - y) a 8.0 (-0.5) d 0.08 6.5 0.7 0.005 =
      0.005 + ((a - (0.08 + (d - 0.08) * Jnp.sigmoid (exp10 (-0.5) * y)) * y) - 0.005) *
        Jnp.sigmoid (exp10 0.7 * (1.5 - y)) := by
    simp only [SurvivingMstar.returned_mass, sig_slope, Utils.sigmoid]
    have e3 : 8 - y - 8.0 = -y := by linarith
    have e4 : 8 - y - 6.5 = 1.5 - y := by linarith
    rw [e3, e4, mul_neg (exp10 (-0.5)), Lemmas.sigmoid_neg]
    ring
  rw [hred]
  generalize exp10 0.7 = K at *
  generalize exp10 (-0.5) = k at *
  have hσ0 : 0 < Jnp.sigmoid (k * y) := sigmoid_pos _
  have hσ1 : Jnp.sigmoid (k * y) < 1 := sigmoid_lt_one _
  have hlow := fun h0 h1 => sigmoid_low_age (k := k) (y := y) (by linarith) hk2 h0 h1
  generalize Jnp.sigmoid (k * y) = σ at *
  have hs0 : 0.05 ≤ 0.08 + (d - 0.08) * σ := by nlinarith
  have hs1 : 0.08 + (d - 0.08) * σ ≤ 0.156 := by nlinarith
  have hsS : 0 ≤ y → y ≤ 2.5 → 0.08 + (d - 0.08) * σ ≤ S := by
    intro h0 h1
    obtain ⟨hl, hu⟩ := hlow h0 h1
    rcases le_total d 0.08 with hd | hd
    · nlinarith
    · nlinarith
  generalize 0.08 + (d - 0.08) * σ = s at *
  have hy25 : -2.5 ≤ y := by linarith
  have hτ0 := sigmoid_pos (K * (1.5 - y))
  have hτ1 := sigmoid_lt_one (K * (1.5 - y))
  constructor
  · rcases le_or_gt y 0 with h0 | h0
    · have h1 : s * y ≤ 0 := mul_nonpos_of_nonneg_of_nonpos (by linarith) h0
      have := mul_nonneg (by linarith : 0 ≤ a - s * y - 0.005) hτ0.le
      linarith
    · rcases le_or_gt y 2.5 with h1 | h1
      · exact returned_mid hK1 hS0 (hsS h0.le h1) hgap hS3 h0
      · exact returned_young hK1 ha1 (by linarith) hs1 h1
  · have hz1 : a - s * y ≤ 1 := by nlinarith
    nlinarith

/-- C37: for every shipped calibration the surviving fraction is between 0 and 1 at every age up to 10^10.5 yr. -/
theorem C37_surviving_fraction (p : SurvivingMstar.Params) (hp : SurvivingShipped p) (x : ℝ) (hx : x ≤ 10.5) :
    0 ≤ SurvivingMstar.surviving_mstar x p ∧ SurvivingMstar.surviving_mstar x p ≤ 1 := by
  suffices h : 0 ≤ SurvivingMstar.returned_mass x p.a p.b p.lgk1 p.d p.e p.f p.lgk2 p.h ∧
      SurvivingMstar.returned_mass x p.a p.b p.lgk1 p.d p.e p.f p.lgk2 p.h ≤ 1 by
    simp only [SurvivingMstar.surviving_mstar]
    constructor <;> linarith [h.1, h.2]
  rcases hp with rfl | rfl | rfl | rfl | rfl
  · exact returned_core (a := 0.13) (d := 0.055) (S := 0.0675) (by norm_num) (by norm_num) (by norm_num) (by norm_num)
      (by norm_num) (by norm_num) (by norm_num) (by norm_num) (by norm_num) hx
  · exact returned_core (a := 0.225) (d := 0.145) (S := 0.125) (by norm_num) (by norm_num) (by norm_num) (by norm_num)
      (by norm_num) (by norm_num) (by norm_num) (by norm_num) (by norm_num) hx
  · exact returned_core (a := 0.211) (d := 0.13) (S := 0.115) (by norm_num) (by norm_num) (by norm_num) (by norm_num)
      (by norm_num) (by norm_num) (by norm_num) (by norm_num) (by norm_num) hx
  · exact returned_core (a := 0.238) (d := 0.156) (S := 0.1325) (by norm_num) (by norm_num) (by norm_num) (by norm_num)
      (by norm_num) (by norm_num) (by norm_num) (by norm_num) (by norm_num) hx
  · exact returned_core (a := 0.225) (d := 0.145) (S := 0.125) (by norm_num) (by norm_num) (by norm_num) (by norm_num)
      (by norm_num) (by norm_num) (by norm_num) (by norm_num) (by norm_num) hx

/-- case: the Kroupa calibration at the age of the universe -/
example := C37_surviving_fraction SurvivingMstar.KROUPA_PARAMS (Or.inr (Or.inr (Or.inl rfl))) 10.1 (by norm_num)

/-- `|u| σ(u) (1 - σ(u)) ≤ 1` -/
theorem sigmoid_bump_le (u : ℝ) : |u * (Jnp.sigmoid u * (1 - Jnp.sigmoid u))| ≤ 1 := by
  have key : ∀ v : ℝ, 0 ≤ v → v * (1 - Jnp.sigmoid v) ≤ 1 := by
    intro v hv
    have h1 := Real.add_one_le_exp v
    have h2 : 1 - Jnp.sigmoid v = 1 / (1 + Real.exp v) := by
      rw [sigmoid_eq]; have := Real.exp_pos v; field_simp; ring
    rw [h2, mul_one_div, div_le_one (by positivity)]
    linarith
  have h0 := sigmoid_pos u
  have h1 := sigmoid_lt_one u
  rcases le_total 0 u with h | h
  · rw [abs_of_nonneg (mul_nonneg h (mul_nonneg h0.le (by linarith)))]
    have := key u h
    have h3 : 0 ≤ u * (1 - Jnp.sigmoid u) := mul_nonneg h (by linarith)
    nlinarith
  · have hk := key (-u) (by linarith)
    rw [Lemmas.sigmoid_neg] at hk
    rw [abs_of_nonpos (mul_nonpos_of_nonpos_of_nonneg h (mul_nonneg h0.le (by linarith)))]
    have h3 : 0 ≤ -u * Jnp.sigmoid u := mul_nonneg (by linarith) h0.le
    nlinarith

/-- a rolling slope between two close positive slopes never turns over -/
theorem sig_slope_strictMono_close {x0 y0 k lo hi : ℝ} (h1 : |hi - lo| < lo) (h2 : |hi - lo| < hi) :
    StrictMono fun x => sig_slope x x0 y0 x0 k lo hi := by
  refine strictMono_of_deriv_pos fun x => ?_
  rw [(hasDerivAt_sig_slope x x0 y0 x0 k lo hi).deriv]
  unfold sigSlopeDeriv
  have hs0 := sigmoid_pos (k * (x - x0))
  have hs1 := sigmoid_lt_one (k * (x - x0))
  have hb := sigmoid_bump_le (k * (x - x0))
  set σ := Jnp.sigmoid (k * (x - x0))
  have hprod : |(hi - lo) * (k * (x - x0) * (σ * (1 - σ)))| ≤ |hi - lo| := by
    rw [abs_mul]; exact mul_le_of_le_one_right (abs_nonneg _) hb
  have hl := (abs_le.1 hprod).1
  have hslope : |hi - lo| < lo + (hi - lo) * σ := by nlinarith
  nlinarith

theorem returned_strictMonoOn {a d : ℝ} (ha1 : 0.13 ≤ a) (hd1 : 0.055 ≤ d) (hd2 : d ≤ 0.156) (hgap : 0.005 < a - d * 1.4)
    (hgap' : 0.005 < a - 0.08 * 1.4) :
    StrictMonoOn (fun x => SurvivingMstar.returned_mass x a 8.0 (-0.5) d 0.08 6.5 0.7 0.005) (Set.Ici 6.6) := by
  have hz : StrictMono fun x => sig_slope x 8.0 a 8.0 (exp10 (-0.5)) d 0.08 := by
    refine sig_slope_strictMono_close ?_ ?_ <;> rw [abs_lt] <;> constructor <;> linarith
  have hK : 0 < exp10 0.7 := by linarith [exp10_07.1]
  have hz0 : ∀ x : ℝ, 6.6 ≤ x → 0.005 < sig_slope x 8.0 a 8.0 (exp10 (-0.5)) d 0.08 := by
    intro x hx
    refine lt_of_lt_of_le ?_ (hz.monotone hx)
    simp only [sig_slope, Utils.sigmoid]
    have hs0 := sigmoid_pos (exp10 (-0.5) * (6.6 - 8.0))
    have hs1 := sigmoid_lt_one (exp10 (-0.5) * (6.6 - 8.0))
    set σ := Jnp.sigmoid (exp10 (-0.5) * (6.6 - 8.0))
    nlinarith
  intro x hx y hy hxy
  simp only [SurvivingMstar.returned_mass, Utils.sigmoid]
  have h1 := hz hxy
  have h2 := hz0 x hx
  have h3 : Jnp.sigmoid (exp10 0.7 * (x - 6.5)) < Jnp.sigmoid (exp10 0.7 * (y - 6.5)) :=
    sigmoid_strictMono (mul_lt_mul_of_pos_left (by linarith) hK)
  have h4 := sigmoid_pos (exp10 0.7 * (x - 6.5))
  simp only at h1
  have : (sig_slope x 8.0 a 8.0 (exp10 (-0.5)) d 0.08 - 0.005) * Jnp.sigmoid (exp10 0.7 * (x - 6.5)) <
      (sig_slope y 8.0 a 8.0 (exp10 (-0.5)) d 0.08 - 0.005) * Jnp.sigmoid (exp10 0.7 * (y - 6.5)) :=
    mul_lt_mul'' (by linarith) h3 (by linarith) h4.le
  linarith

/-- C37: a population only loses mass: from 10^6.6 yr (4 Myr) on the surviving fraction strictly decreases with age. -/
theorem C37_surviving_decreasing (p : SurvivingMstar.Params) (hp : SurvivingShipped p) :
    StrictAntiOn (fun x => SurvivingMstar.surviving_mstar x p) (Set.Ici 6.6) := by
  have h : StrictMonoOn (fun x => SurvivingMstar.returned_mass x p.a p.b p.lgk1 p.d p.e p.f p.lgk2 p.h) (Set.Ici 6.6) := by
    rcases hp with rfl | rfl | rfl | rfl | rfl
    · exact returned_strictMonoOn (a := 0.13) (d := 0.055) (by norm_num) (by norm_num) (by norm_num) (by norm_num) (by norm_num)
    · exact returned_strictMonoOn (a := 0.225) (d := 0.145) (by norm_num) (by norm_num) (by norm_num) (by norm_num) (by norm_num)
    · exact returned_strictMonoOn (a := 0.211) (d := 0.13) (by norm_num) (by norm_num) (by norm_num) (by norm_num) (by norm_num)
    · exact returned_strictMonoOn (a := 0.238) (d := 0.156) (by norm_num) (by norm_num) (by norm_num) (by norm_num) (by norm_num)
    · exact returned_strictMonoOn (a := 0.225) (d := 0.145) (by norm_num) (by norm_num) (by norm_num) (by norm_num) (by norm_num)
  intro x hx y hy hxy
  have := h hx hy hxy
  simp only [SurvivingMstar.surviving_mstar]
  simp only at this
  linarith

/-- case: the Kroupa calibration -/
example := C37_surviving_decreasing SurvivingMstar.KROUPA_PARAMS (Or.inr (Or.inr (Or.inl rfl)))

/-- C37: young populations (below 10^5 yr) have lost at most one per cent, and at 10^8 yr the returned fraction is the
calibration constant `a` (13 per cent for Salpeter, 22.5 for Chabrier, ...) to one per cent of its value. -/
theorem C37_surviving_values (p : SurvivingMstar.Params) (hp : SurvivingShipped p) :
    (∀ x ≤ 5, 0.99 ≤ SurvivingMstar.surviving_mstar x p) ∧
    1 - p.a ≤ SurvivingMstar.surviving_mstar 8 p ∧ SurvivingMstar.surviving_mstar 8 p ≤ 1 - 0.99 * p.a := by
  have core : ∀ a d : ℝ, 0.13 ≤ a → a ≤ 0.238 → 0.055 ≤ d → d ≤ 0.156 →
      (∀ x ≤ 5, SurvivingMstar.returned_mass x a 8.0 (-0.5) d 0.08 6.5 0.7 0.005 ≤ 0.01) ∧
      0.99 * a ≤ SurvivingMstar.returned_mass 8 a 8.0 (-0.5) d 0.08 6.5 0.7 0.005 ∧
      SurvivingMstar.returned_mass 8 a 8.0 (-0.5) d 0.08 6.5 0.7 0.005 ≤ a := by
    intro a d ha1 ha2 hd1 hd2
    obtain ⟨hK1, hK2⟩ := exp10_07
    have hexp : ∀ u : ℝ, 7 ≤ u → Real.exp (-u) ≤ 0.004 := by
      intro u hu
      have h1 : Real.exp (-u) ≤ Real.exp (-1) ^ 7 := by
        rw [← Real.exp_nat_mul]; exact Real.exp_le_exp.2 (by push_cast; linarith)
      have h2 : Real.exp (-1) < 0.3678794412 := Real.exp_neg_one_lt_d9
      have h3 : Real.exp (-1) ^ 7 ≤ 0.3678794412 ^ 7 := pow_le_pow_left₀ (Real.exp_pos _).le h2.le 7
      refine h1.trans (h3.trans (by norm_num))
    refine ⟨fun x hx => ?_, ?_⟩
    · simp only [SurvivingMstar.returned_mass, sig_slope, Utils.sigmoid]
      have hσ0 := sigmoid_pos (exp10 (-0.5) * (x - 8.0))
      have hσ1 := sigmoid_lt_one (exp10 (-0.5) * (x - 8.0))
      have hτ0 := sigmoid_pos (exp10 0.7 * (x - 6.5))
      have hτ : Jnp.sigmoid (exp10 0.7 * (x - 6.5)) ≤ 0.004 := by
        refine (sigmoid_le_exp _).trans ?_
        have := hexp (-(exp10 0.7 * (x - 6.5))) (by nlinarith)
        rwa [neg_neg] at this
      set σ := Jnp.sigmoid (exp10 (-0.5) * (x - 8.0))
      set τ := Jnp.sigmoid (exp10 0.7 * (x - 6.5))
      have hs : 0 ≤ d + (0.08 - d) * σ := by nlinarith
      have hsx : (d + (0.08 - d) * σ) * (x - 8.0) ≤ 0 := mul_nonpos_of_nonneg_of_nonpos hs (by linarith)
      have : (a + (d + (0.08 - d) * σ) * (x - 8.0) - 0.005) * τ ≤ 0.238 * τ := mul_le_mul_of_nonneg_right (by linarith) hτ0.le
      linarith
    · simp only [SurvivingMstar.returned_mass, sig_slope, Utils.sigmoid]
      have e : (8 : ℝ) - 8.0 = 0 := by norm_num
      rw [e, mul_zero, add_zero]
      have hτ1 := sigmoid_lt_one (exp10 0.7 * (8 - 6.5))
      have hτ : 0.996 ≤ Jnp.sigmoid (exp10 0.7 * (8 - 6.5)) := by
        have h1 : 1 - Jnp.sigmoid (exp10 0.7 * (8 - 6.5)) = Jnp.sigmoid (-(exp10 0.7 * (8 - 6.5))) := by
          rw [Lemmas.sigmoid_neg]
        have h2 := sigmoid_le_exp (-(exp10 0.7 * (8 - 6.5)))
        have h3 := hexp (exp10 0.7 * (8 - 6.5)) (by nlinarith)
        linarith
      constructor <;> nlinarith
  have fin : (∀ x ≤ 5, SurvivingMstar.returned_mass x p.a p.b p.lgk1 p.d p.e p.f p.lgk2 p.h ≤ 0.01) ∧
      0.99 * p.a ≤ SurvivingMstar.returned_mass 8 p.a p.b p.lgk1 p.d p.e p.f p.lgk2 p.h ∧
      SurvivingMstar.returned_mass 8 p.a p.b p.lgk1 p.d p.e p.f p.lgk2 p.h ≤ p.a := by
    rcases hp with rfl | rfl | rfl | rfl | rfl
    · exact core 0.13 0.055 (by norm_num) (by norm_num) (by norm_num) (by norm_num)
    · exact core 0.225 0.145 (by norm_num) (by norm_num) (by norm_num) (by norm_num)
    · exact core 0.211 0.13 (by norm_num) (by norm_num) (by norm_num) (by norm_num)
    · exact core 0.238 0.156 (by norm_num) (by norm_num) (by norm_num) (by norm_num)
    · exact core 0.225 0.145 (by norm_num) (by norm_num) (by norm_num) (by norm_num)
  simp only [SurvivingMstar.surviving_mstar]
  refine ⟨fun x hx => ?_, ?_, ?_⟩
  · have := fin.1 x hx; linarith
  · linarith [fin.2.2]
  · linarith [fin.2.1]

/-- case: the Kroupa calibration -/
example := C37_surviving_values SurvivingMstar.KROUPA_PARAMS (Or.inr (Or.inr (Or.inl rfl)))

example : SurvivingShipped SurvivingMstar.KROUPA_PARAMS ∧ (10.1:ℝ) ≤ 10.5 := ⟨Or.inr (Or.inr (Or.inl rfl)), by norm_num⟩

/-- The four published surviving-mass calibrations, IMF by IMF: `a` is the returned fraction at the pivot age 10^8 yr and `d` the
slope at young ages; all share the old slope 0.08 per dex, the transition widths and the young floor 0.005. -/
theorem C37_calibrations (x : ℝ) :
    let returned : ℝ → ℝ → ℝ := fun a d =>
      a + (d + (0.08 - d) / (1 + Real.exp (-((10:ℝ) ^ (-0.5 : ℝ) * (x - 8))))) * (x - 8)
    let curve : ℝ → ℝ → ℝ := fun a d =>
      1 - (0.005 + (returned a d - 0.005) / (1 + Real.exp (-((10:ℝ) ^ (0.7 : ℝ) * (x - 6.5)))))
    SurvivingMstar.surviving_mstar x SurvivingMstar.SALPETER_PARAMS = curve 0.13 0.055 ∧
    SurvivingMstar.surviving_mstar x SurvivingMstar.CHABRIER_PARAMS = curve 0.225 0.145 ∧
    SurvivingMstar.surviving_mstar x SurvivingMstar.KROUPA_PARAMS = curve 0.211 0.13 ∧
    SurvivingMstar.surviving_mstar x SurvivingMstar.VAN_DOKKUM_PARAMS = curve 0.238 0.156 ∧
    SurvivingMstar.surviving_mstar x = curve 0.225 0.145 := by
  have key : ∀ a d : ℝ, SurvivingMstar.surviving_mstar x { SurvivingMstar.DEFAULT_PARAMS with a := a, d := d } =
      1 - (0.005 + ((a + (d + (0.08 - d) / (1 + Real.exp (-((10:ℝ) ^ (-0.5 : ℝ) * (x - 8))))) * (x - 8)) - 0.005) /
        (1 + Real.exp (-((10:ℝ) ^ (0.7 : ℝ) * (x - 6.5))))) := by
    intro a d
    simp only [SurvivingMstar.surviving_mstar, SurvivingMstar.returned_mass, SurvivingMstar.DEFAULT_PARAMS, sig_slope,
      Utils.sigmoid, Jnp.sigmoid, exp10]
    norm_num
    ring
  exact ⟨key _ _, key _ _, key _ _, key _ _, key _ _⟩

end Dsps.Props
