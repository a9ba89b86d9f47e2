import Verif.Model.Dust
import Verif.Lemmas.Photometry
import Verif.Lemmas.Triweight
import Verif.Cases

/-! C47 and C55–C59: effective wavelengths and dust attenuation curves. -/
namespace Dsps.Props
open Jnp Dsps.Utils Dsps.Dust Dsps.Lemmas
open scoped BigOperators

variable {n : ℕ}

/-! ### C47 -/

/-- The normalisation is positive for a strictly increasing grid and a transmission curve that is positive somewhere. -/
theorem trapz_pos {w t : Fin (n + 2) → ℝ} (hw : StrictMono w) (ht : ∀ i, 0 ≤ t i) (hp : ∃ i, 0 < t i) :
    0 < trapz w t := by
  obtain ⟨i, hi⟩ := hp
  rw [trapz_eq]
  have hterm : ∀ k : Fin (n + 1), 0 ≤ (w k.succ - w k.castSucc) * (t k.castSucc + t k.succ) / 2 := by
    intro k
    have := hw k.castSucc_lt_succ
    have := ht k.castSucc
    have := ht k.succ
    have : 0 ≤ w k.succ - w k.castSucc := by linarith
    positivity
  have hpos : ∃ k : Fin (n + 1), 0 < t k.castSucc + t k.succ := by
    rcases Fin.eq_castSucc_or_eq_last i with ⟨k, rfl⟩ | rfl
    · exact ⟨k, by linarith [ht k.succ]⟩
    · exact ⟨Fin.last n, by rw [Fin.succ_last]; linarith [ht (Fin.last n).castSucc]⟩
  obtain ⟨k, hk⟩ := hpos
  refine Finset.sum_pos' (fun k _ => hterm k) ⟨k, Finset.mem_univ _, ?_⟩
  have : 0 < w k.succ - w k.castSucc := by linarith [hw k.castSucc_lt_succ]
  positivity

/-- C47: the effective wavelength lies within the passband blue-shifted to the rest frame: between the smallest
and largest filter wavelength divided by `1+z`. -/
theorem C47_in_passband {fw ft : Fin (n + 2) → ℝ} (hw : StrictMono fw) (ht : ∀ i, 0 ≤ ft i) (hp : ∃ i, 0 < ft i)
    {z : ℝ} (hz : -1 < z) :
    fw 0 / (1 + z) ≤ get_filter_effective_wavelength fw ft z ∧
    get_filter_effective_wavelength fw ft z ≤ fw (Fin.last (n + 1)) / (1 + z) := by
  have hN := trapz_pos hw ht hp
  have hu : 0 < 1 + z := by linarith
  unfold get_filter_effective_wavelength
  simp only
  constructor
  · apply div_le_div_of_nonneg_right _ hu.le
    rw [le_div_iff₀ hN, ← trapz_smul]
    apply trapz_mono hw.monotone
    intro i
    rw [mul_comm]
    exact mul_le_mul_of_nonneg_left (hw.monotone (Fin.zero_le i)) (ht i)
  · apply div_le_div_of_nonneg_right _ hu.le
    rw [div_le_iff₀ hN, ← trapz_smul]
    apply trapz_mono hw.monotone
    intro i
    rw [mul_comm (ft i)]
    exact mul_le_mul_of_nonneg_right (hw.monotone (Fin.le_last i)) (ht i)

/-- case: a triangular filter at redshift 1/2 -/
example := C47_in_passband (n := 1) (fw := ![4000, 5000, 6000]) (ft := ![0, 1, 0]) (Case.sm3 (by norm_num) (by norm_num))
  (Case.all3 (by norm_num) (by norm_num) (by norm_num)) ⟨1, by norm_num⟩ (z := 1 / 2) (by norm_num)

/-- C47: it does not depend on the normalisation of the transmission curve. -/
theorem C47_normalisation (fw ft : Fin (n + 1) → ℝ) (z : ℝ) {c : ℝ} (hc : c ≠ 0) :
    get_filter_effective_wavelength fw (fun i => c * ft i) z = get_filter_effective_wavelength fw ft z := by
  unfold get_filter_effective_wavelength
  simp only [mul_assoc]
  rw [trapz_smul, trapz_smul, mul_div_mul_left _ _ hc]

/-- case: half the transmission -/
example := C47_normalisation (n := 2) ![4000, 5000, 6000] ![0, 1, 0] (1 / 2) (c := 1 / 2) (by norm_num)

/-- C47: it scales as `1/(1+z)`, and stretching the filter by `s` stretches the effective wavelength by `s`. -/
theorem C47_scaling (fw ft : Fin (n + 1) → ℝ) (z : ℝ) {s : ℝ} (hs : s ≠ 0) :
    get_filter_effective_wavelength fw ft z = get_filter_effective_wavelength fw ft 0 / (1 + z) ∧
    get_filter_effective_wavelength (fun i => fw i / s) ft z = get_filter_effective_wavelength fw ft z / s := by
  unfold get_filter_effective_wavelength
  simp only
  constructor
  · simp
  · have e : (fun i => ft i * (fw i / s)) = fun i => s⁻¹ * (ft i * fw i) := by
      funext i; field_simp
    rw [e, trapz_scale_x, trapz_scale_x, trapz_smul]
    by_cases h : trapz fw ft = 0
    · simp [h]
    · field_simp

/-- case: Ångström to micron -/
example := C47_scaling (n := 2) ![4000, 5000, 6000] ![0, 1, 0] (1 / 2) (s := 10000) (by norm_num)

/-- C47: a transmission curve moved to longer wavelengths by `d` moves the effective wavelength by `d`. -/
theorem C47_shift {fw ft : Fin (n + 1) → ℝ} (d : ℝ) (hN : trapz fw ft ≠ 0) :
    get_filter_effective_wavelength (fun i => fw i + d) ft 0 = get_filter_effective_wavelength fw ft 0 + d := by
  have e1 : ∀ y, trapz (fun i => fw i + d) y = trapz fw y := by
    intro y; rw [trapz_eq, trapz_eq]
    apply Finset.sum_congr rfl; intro k _; ring
  have e2 : (fun i => ft i * (fw i + d)) = fun i => ft i * fw i + d * ft i := by funext i; ring
  unfold get_filter_effective_wavelength
  simp only
  rw [e1, e1, e2, trapz_add', trapz_smul]
  field_simp
  ring

/-- case: a filter shifted by 100 Å -/
example := C47_shift (n := 2) (fw := ![4000, 5000, 6000]) (ft := ![0, 1, 0]) 100
  (by rw [trapz_eq]; simp [Fin.sum_univ_succ]; norm_num)

/-- A triangular filter meets the hypotheses. -/
example : StrictMono (![4000, 5000, (6000 : ℝ)] : Fin 3 → ℝ) ∧ (∀ i, 0 ≤ (![0, 1, 0] : Fin 3 → ℝ) i) ∧
    ∃ i, 0 < (![0, 1, 0] : Fin 3 → ℝ) i := by
  refine ⟨?_, ?_, ⟨1, by norm_num⟩⟩
  · rw [Fin.strictMono_iff_lt_succ]; intro i; fin_cases i <;> simp <;> norm_num
  · intro i; fin_cases i <;> simp

/-! ### C55 -/

theorem att_eq_max (k av : ℝ) : att_curve_from_k_lambda k av = max (av * k / 4.05) 0 := by
  unfold att_curve_from_k_lambda RV_C00
  simp only
  split_ifs with h
  · rw [max_eq_right h.le]
  · rw [max_eq_left (not_lt.1 h)]

theorem trans_pow_bounds {A : ℝ} (h : 0 ≤ A) : 0 < (10 : ℝ) ^ (-0.4 * A) ∧ (10 : ℝ) ^ (-0.4 * A) ≤ 1 :=
  ⟨Real.rpow_pos_of_pos (by norm_num) _, Real.rpow_le_one_of_one_le_of_nonpos (by norm_num) (by nlinarith)⟩

/-- C55: the transmitted fraction is at least the floor and at most one; it only reaches the floor if the floor
is one. -/
theorem C55_bounds (k av : ℝ) {fl : ℝ} (hfl : fl ≤ 1) :
    fl ≤ frac_transmission_from_k_lambda k av fl ∧ frac_transmission_from_k_lambda k av fl ≤ 1 ∧
    (fl < 1 → fl < frac_transmission_from_k_lambda k av fl) := by
  have h0 : 0 ≤ att_curve_from_k_lambda k av := by rw [att_eq_max]; exact le_max_right _ _
  obtain ⟨h1, h2⟩ := trans_pow_bounds h0
  unfold frac_transmission_from_k_lambda
  simp only
  refine ⟨?_, ?_, fun h => ?_⟩
  · nlinarith
  · nlinarith
  · have : 0 < (1 - fl) * (10 : ℝ) ^ (-0.4 * att_curve_from_k_lambda k av) := mul_pos (by linarith) h1
    linarith

/-- case: 20% of the light unobscured -/
example := C55_bounds 5 0.7 (fl := 0.2) (by norm_num)

/-- C55: no dust, or a floor of one, transmits everything. -/
theorem C55_no_dust (k av fl : ℝ) :
    frac_transmission_from_k_lambda k 0 fl = 1 ∧ frac_transmission_from_k_lambda k av 1 = 1 := by
  unfold frac_transmission_from_k_lambda
  rw [att_eq_max, att_eq_max]
  simp

/-- C55: the extinction in magnitudes, `-2.5 log10(F)`, is the attenuation curve, which is `av·k/4.05` where that
is positive and zero otherwise. -/
theorem C55_magnitudes (k av : ℝ) :
    -2.5 * Real.logb 10 (frac_transmission_from_k_lambda k av) = max (av * k / 4.05) 0 := by
  rw [← att_eq_max]
  unfold frac_transmission_from_k_lambda
  simp only [zero_add, sub_zero, one_mul]
  rw [Real.logb_rpow (by norm_num) (by norm_num)]
  ring

/-- C55: full transmission happens only where there is no attenuation. -/
theorem C55_full_transmission_iff (k av : ℝ) {fl : ℝ} (hfl : fl < 1) :
    frac_transmission_from_k_lambda k av fl = 1 ↔ av * k ≤ 0 := by
  have e : frac_transmission_from_k_lambda k av fl = 1 ↔ att_curve_from_k_lambda k av = 0 := by
    unfold frac_transmission_from_k_lambda
    simp only
    have h0 : 0 ≤ att_curve_from_k_lambda k av := by rw [att_eq_max]; exact le_max_right _ _
    generalize att_curve_from_k_lambda k av = A at *
    constructor
    · intro h
      have h1 : (10 : ℝ) ^ (-0.4 * A) = 1 := by
        have h3 : (1 - fl) * ((10 : ℝ) ^ (-0.4 * A) - 1) = 0 := by linarith
        rcases mul_eq_zero.1 h3 with h4 | h4 <;> linarith
      rcases h0.eq_or_lt with h2 | h2
      · exact h2.symm
      · have := Real.rpow_lt_one_of_one_lt_of_neg (x := 10) (by norm_num) (z := -0.4 * A) (by linarith)
        linarith
    · intro h; rw [h]; simp
  rw [e, att_eq_max]
  constructor
  · intro h
    have := le_max_left (av * k / 4.05) 0
    rw [h, div_nonpos_iff] at this
    rcases this with h | h
    · norm_num at h
    · exact h.1
  · intro h
    exact max_eq_right (div_nonpos_of_nonpos_of_nonneg h (by norm_num))

/-- case: 20% of the light unobscured -/
example := C55_full_transmission_iff 5 0.7 (fl := 0.2) (by norm_num)

/-! ### C56 -/

/-- C56: with no floor, two successive screens of dust transmit the product of what each transmits. -/
theorem C56_screens_compose {k av1 av2 : ℝ} (hk : 0 ≤ k) (h1 : 0 ≤ av1) (h2 : 0 ≤ av2) :
    frac_transmission_from_k_lambda k (av1 + av2)
      = frac_transmission_from_k_lambda k av1 * frac_transmission_from_k_lambda k av2 := by
  unfold frac_transmission_from_k_lambda
  simp only [zero_add, sub_zero, one_mul, att_eq_max]
  rw [max_eq_left (by positivity), max_eq_left (by positivity), max_eq_left (by positivity),
    ← Real.rpow_add (by norm_num)]
  congr 1; ring

/-- case: two screens -/
example := C56_screens_compose (k := 5) (av1 := 0.7) (av2 := 0.4) (by norm_num) (by norm_num) (by norm_num)

/-- C56: more dust never transmits more, whatever the reddening curve value (`k ≥ 0`) and floor. -/
theorem C56_monotone {k av1 av2 fl : ℝ} (hk : 0 ≤ k) (hfl : fl ≤ 1) (h : av1 ≤ av2) :
    frac_transmission_from_k_lambda k av2 fl ≤ frac_transmission_from_k_lambda k av1 fl := by
  have hA : att_curve_from_k_lambda k av1 ≤ att_curve_from_k_lambda k av2 := by
    rw [att_eq_max, att_eq_max]
    exact max_le_max_right _ (div_le_div_of_nonneg_right (mul_le_mul_of_nonneg_right h hk) (by norm_num))
  have := Real.rpow_le_rpow_of_exponent_le (x := 10) (by norm_num)
    (show -0.4 * att_curve_from_k_lambda k av2 ≤ -0.4 * att_curve_from_k_lambda k av1 by linarith)
  unfold frac_transmission_from_k_lambda
  simp only
  have : 0 ≤ 1 - fl := by linarith
  gcongr

/-- case: 0.4 and 0.7 magnitudes -/
example := C56_monotone (k := 5) (av1 := 0.4) (av2 := 0.7) (fl := 0.2) (by norm_num) (by norm_num) (by norm_num)

/-- C56: strictly less where the curve is positive and the floor is below one. -/
theorem C56_strict {k av1 av2 fl : ℝ} (hk : 0 < k) (hfl : fl < 1) (h0 : 0 ≤ av1) (h : av1 < av2) :
    frac_transmission_from_k_lambda k av2 fl < frac_transmission_from_k_lambda k av1 fl := by
  have hA : att_curve_from_k_lambda k av1 < att_curve_from_k_lambda k av2 := by
    rw [att_eq_max, att_eq_max, max_eq_left (by positivity), max_eq_left (by have := h0.trans h.le; positivity)]
    gcongr
  have := Real.rpow_lt_rpow_of_exponent_lt (x := 10) (by norm_num)
    (show -0.4 * att_curve_from_k_lambda k av2 < -0.4 * att_curve_from_k_lambda k av1 by linarith)
  unfold frac_transmission_from_k_lambda
  simp only
  have : 0 < 1 - fl := by linarith
  gcongr

/-- case: 0.4 and 0.7 magnitudes -/
example := C56_strict (k := 5) (av1 := 0.4) (av2 := 0.7) (fl := 0.2) (by norm_num) (by norm_num) (by norm_num) (by norm_num)

/-- C56: more reddening at some wavelength transmits less there, and a higher floor transmits more. -/
theorem C56_monotone_in_curve {k1 k2 av fl1 fl2 : ℝ} (hav : 0 ≤ av) (hfl : fl2 ≤ 1) (hk : k1 ≤ k2) (hfl12 : fl1 ≤ fl2) :
    frac_transmission_from_k_lambda k2 av fl1 ≤ frac_transmission_from_k_lambda k1 av fl2 := by
  have hA : att_curve_from_k_lambda k1 av ≤ att_curve_from_k_lambda k2 av := by
    rw [att_eq_max, att_eq_max]
    exact max_le_max_right _ (div_le_div_of_nonneg_right (mul_le_mul_of_nonneg_left hk hav) (by norm_num))
  have h1 := Real.rpow_le_rpow_of_exponent_le (x := 10) (by norm_num)
    (show -0.4 * att_curve_from_k_lambda k2 av ≤ -0.4 * att_curve_from_k_lambda k1 av by linarith)
  have h0 : 0 ≤ att_curve_from_k_lambda k1 av := by rw [att_eq_max]; exact le_max_right _ _
  have h2 := trans_pow_bounds h0
  unfold frac_transmission_from_k_lambda
  simp only
  generalize (10 : ℝ) ^ (-0.4 * att_curve_from_k_lambda k2 av) = a at *
  generalize (10 : ℝ) ^ (-0.4 * att_curve_from_k_lambda k1 av) = b at *
  nlinarith [mul_nonneg (sub_nonneg.2 (hfl12.trans hfl)) (sub_nonneg.2 h1), mul_nonneg (sub_nonneg.2 hfl12) (sub_nonneg.2 h2.2)]

/-- case: two values of the curve and two unobscured fractions -/
example := C56_monotone_in_curve (k1 := 3) (k2 := 5) (av := 0.4) (fl1 := 0.1) (fl2 := 0.2) (by norm_num) (by norm_num) (by norm_num)
  (by norm_num)

/-- Without `k ≥ 0` the composition law fails: the clip makes negative `k` transparent in both directions. -/
theorem C56_negative_curve_is_transparent {k av fl : ℝ} (hk : k ≤ 0) (hav : 0 ≤ av) :
    frac_transmission_from_k_lambda k av fl = 1 := by
  have : att_curve_from_k_lambda k av = 0 := by
    rw [att_eq_max]
    exact max_eq_right (div_nonpos_of_nonpos_of_nonneg (mul_nonpos_of_nonneg_of_nonpos hav hk) (by norm_num))
  unfold frac_transmission_from_k_lambda
  simp only
  rw [this]; simp

/-- case: a negative value of the curve -/
example := C56_negative_curve_is_transparent (k := -1) (av := 0.4) (fl := 0.2) (by norm_num) (by norm_num)

/-! ### C57 -/

theorem noll_eq_max (w a s b d : ℝ) :
    noll09_k_lambda w a s b d = max ((l02_below_c00_above w 0.15 + drude_bump w b d a) * power_law_vband_norm w s) 0 := by
  unfold noll09_k_lambda
  simp only
  split_ifs with h
  · rw [max_eq_right h.le]
  · rw [max_eq_left (not_lt.1 h)]

theorem sbl_eq_max (w a s b d : ℝ) :
    sbl18_k_lambda w a s b d = max (l02_below_c00_above w 0.15 * power_law_vband_norm w s + drude_bump w b d a) 0 := by
  unfold sbl18_k_lambda
  simp only
  split_ifs with h
  · rw [max_eq_right h.le]
  · rw [max_eq_left (not_lt.1 h)]

/-- C57: both curves, and the attenuation curves made from them for any `av`, are never negative. -/
theorem C57_nonnegative (w a s b d av : ℝ) :
    0 ≤ noll09_k_lambda w a s b d ∧ 0 ≤ sbl18_k_lambda w a s b d ∧
    0 ≤ noll09_k_att_curve w av a s b d ∧ 0 ≤ sbl18_k_att_curve w av a s b d := by
  refine ⟨by rw [noll_eq_max]; exact le_max_right _ _, by rw [sbl_eq_max]; exact le_max_right _ _, ?_, ?_⟩
  · unfold noll09_k_att_curve; simp only; rw [att_eq_max]; exact le_max_right _ _
  · unfold sbl18_k_att_curve; simp only; rw [att_eq_max]; exact le_max_right _ _

/-- C57: the two models coincide when the slope is zero or there is no bump. -/
theorem C57_models_coincide (w a s b d : ℝ) :
    noll09_k_lambda w a 0 b d = sbl18_k_lambda w a 0 b d ∧ noll09_k_lambda w 0 s b d = sbl18_k_lambda w 0 s b d := by
  rw [noll_eq_max, sbl_eq_max, noll_eq_max, sbl_eq_max]
  unfold power_law_vband_norm drude_bump
  simp

/-- C57: with neither, both are the clipped base curve: Leitherer at or below 0.15 micron, Calzetti above. -/
theorem C57_base_curve (w b d : ℝ) :
    (w ≤ 0.15 → noll09_k_lambda w 0 0 b d = max (leitherer02_k_lambda w) 0) ∧
    (0.15 < w → noll09_k_lambda w 0 0 b d = max (calzetti00_k_lambda w) 0) := by
  rw [noll_eq_max]
  unfold power_law_vband_norm drude_bump l02_below_c00_above
  simp only [zero_mul, add_zero, Real.rpow_zero, mul_one]
  constructor
  · intro h; rw [if_neg (not_lt.2 h)]
  · intro h; rw [if_pos h]

theorem plaw_pos {w : ℝ} (hw : 0 < w) (s : ℝ) : 0 < power_law_vband_norm w s := by
  unfold power_law_vband_norm; simp only; positivity

/-- C57: the difference between the models is that only Noll's power law acts on the bump: wherever neither is clipped,
`noll - sbl = bump · (plaw - 1)`. -/
theorem C57_difference {w a s b d : ℝ} (h1 : 0 < noll09_k_lambda w a s b d) (h2 : 0 < sbl18_k_lambda w a s b d) :
    noll09_k_lambda w a s b d - sbl18_k_lambda w a s b d
      = a * (w ^ 2 * d ^ 2 / ((w ^ 2 - b ^ 2) ^ 2 + w ^ 2 * d ^ 2)) * ((w / 0.55) ^ s - 1) := by
  rw [noll_eq_max] at *
  rw [sbl_eq_max] at *
  rw [max_eq_left (by rcases lt_max_iff.1 h1 with h | h; exacts [h.le, absurd h (lt_irrefl _)]),
    max_eq_left (by rcases lt_max_iff.1 h2 with h | h; exacts [h.le, absurd h (lt_irrefl _)])]
  unfold power_law_vband_norm drude_bump
  ring

/-- C57: the models in full with the default bump (centre 0.2175 micron, width 0.035 micron): which factor multiplies what, and where it is clipped. -/
theorem C57_default_bump (w a s : ℝ) :
    noll09_k_lambda w a s
      = max ((l02_below_c00_above w + a * (w ^ 2 * 0.035 ^ 2 / ((w ^ 2 - 0.2175 ^ 2) ^ 2 + w ^ 2 * 0.035 ^ 2))) * (w / 0.55) ^ s) 0 ∧
    sbl18_k_lambda w a s
      = max (l02_below_c00_above w * (w / 0.55) ^ s + a * (w ^ 2 * 0.035 ^ 2 / ((w ^ 2 - 0.2175 ^ 2) ^ 2 + w ^ 2 * 0.035 ^ 2))) 0 := by
  rw [noll_eq_max, sbl_eq_max]
  unfold power_law_vband_norm drude_bump UV_BUMP_W0 UV_BUMP_DW
  norm_num

/-- C57: the four attenuation curves in magnitudes are `A(λ) = A_V k(λ) / R_V` with `R_V = 4.05`, clipped at zero, of the curves with the same arguments. -/
theorem C57_att_curves (w av a s b d : ℝ) :
    noll09_k_att_curve w av a s b d = max (av * noll09_k_lambda w a s b d / 4.05) 0 ∧
    sbl18_k_att_curve w av a s b d = max (av * sbl18_k_lambda w a s b d / 4.05) 0 ∧
    noll09_k_att_curve w av a s = max (av * noll09_k_lambda w a s 0.2175 0.035 / 4.05) 0 ∧
    sbl18_k_att_curve w av a s = max (av * sbl18_k_lambda w a s 0.2175 0.035 / 4.05) 0 ∧
    calzetti00_att_curve w av = max (av * calzetti00_k_lambda w / 4.05) 0 ∧
    leitherer02_att_curve w av = max (av * leitherer02_k_lambda w / 4.05) 0 :=
  have hb : UV_BUMP_W0 = 0.2175 := by norm_num [UV_BUMP_W0]
  have hd : UV_BUMP_DW = 0.035 := by norm_num [UV_BUMP_DW]
  ⟨att_eq_max _ _, att_eq_max _ _, by rw [← hb, ← hd]; exact att_eq_max _ _, by rw [← hb, ← hd]; exact att_eq_max _ _, att_eq_max _ _, att_eq_max _ _⟩

/-- case: a bump of amplitude 3 at 0.2175 micron, slope -1/2: neither curve is clipped there -/
example := C57_difference (w := 0.2175) (a := 3) (s := -0.5) (b := 0.2175) (d := 0.035)
  (by
    have h1 : 0 < l02_below_c00_above 0.2175 0.15 := by
      unfold l02_below_c00_above calzetti00_k_lambda RV_C00; norm_num
    have h2 : 0 < drude_bump 0.2175 0.2175 0.035 3 := by unfold drude_bump; norm_num
    rw [noll_eq_max]
    exact lt_max_of_lt_left (mul_pos (add_pos h1 h2) (plaw_pos (by norm_num) _)))
  (by
    have h1 : 0 < l02_below_c00_above 0.2175 0.15 := by
      unfold l02_below_c00_above calzetti00_k_lambda RV_C00; norm_num
    have h2 : 0 < drude_bump 0.2175 0.2175 0.035 3 := by unfold drude_bump; norm_num
    rw [sbl_eq_max]
    exact lt_max_of_lt_left (add_pos (mul_pos h1 (plaw_pos (by norm_num) _)) h2))

/-! ### C58 -/

theorem k1_strictMono {y z : ℝ} (h : y < z) :
    1.509 * y - 0.198 * y ^ 2 + 0.011 * y ^ 3 < 1.509 * z - 0.198 * z ^ 2 + 0.011 * z ^ 3 := by
  nlinarith [mul_pos (sub_pos.2 h) (show (0:ℝ) < 1.509 - 0.198 * (y + z) + 0.011 * (y^2 + y*z + z^2) by
    nlinarith [sq_nonneg (y + z - 12), sq_nonneg (y - z)])]

/-- C58: the Calzetti curve is strictly decreasing on each of its two branches (`λ < 0.63` and `λ ≥ 0.63` micron). -/
theorem C58_calzetti_decreasing_partial {w1 w2 : ℝ} (h0 : 0 < w1) (h : w1 < w2) (hb : w2 < 0.63 ∨ 0.63 ≤ w1) :
    calzetti00_k_lambda w2 < calzetti00_k_lambda w1 := by
  have hy : 1 / w2 < 1 / w1 := one_div_lt_one_div_of_lt h0 h
  unfold calzetti00_k_lambda
  simp only
  rcases hb with hb | hb
  · rw [if_pos hb, if_pos (h.trans hb)]
    have := k1_strictMono hy
    linarith
  · rw [if_neg (not_lt.2 hb), if_neg (not_lt.2 (hb.trans h.le))]
    linarith

/-- case: 0.2 and 0.4 micron, 0.7 and 2 micron -/
example : calzetti00_k_lambda 0.4 < calzetti00_k_lambda 0.2 ∧ calzetti00_k_lambda 2 < calzetti00_k_lambda 0.7 :=
  ⟨C58_calzetti_decreasing_partial (by norm_num) (by norm_num) (Or.inl (by norm_num)),
    C58_calzetti_decreasing_partial (by norm_num) (by norm_num) (Or.inr (by norm_num))⟩

/-- C58, the claim of global monotonicity is false: the two branches do not meet at 0.63 micron. -/
theorem C58_calzetti_jump : calzetti00_k_lambda 0.6299 < calzetti00_k_lambda 0.63 := by
  unfold calzetti00_k_lambda
  simp only
  rw [if_pos (by norm_num), if_neg (by norm_num)]
  unfold RV_C00
  norm_num

/-- C58: nor do the Leitherer and Calzetti branches used by the Noll and Salim models meet at 0.15 micron. -/
theorem C58_base_jump : l02_below_c00_above 0.15 < l02_below_c00_above 0.1501 := by
  unfold l02_below_c00_above calzetti00_k_lambda leitherer02_k_lambda
  simp only
  rw [if_neg (by norm_num), if_pos (by norm_num), if_pos (by norm_num)]
  unfold RV_C00
  norm_num

/-- C58: the jump is small: up to 0.026 (below 1 per cent of its value there) the Calzetti curve is decreasing. -/
theorem C58_almost_decreasing {w1 w2 : ℝ} (h0 : 0 < w1) (h : w1 < w2) :
    calzetti00_k_lambda w2 < calzetti00_k_lambda w1 + 0.026 := by
  have hy : 1 / w2 < 1 / w1 := one_div_lt_one_div_of_lt h0 h
  by_cases hb : w2 < 0.63 ∨ 0.63 ≤ w1
  · linarith [C58_calzetti_decreasing_partial h0 h hb]
  · rw [not_or, not_lt, not_le] at hb
    have h1 : (1 : ℝ) / 0.63 < 1 / w1 := one_div_lt_one_div_of_lt h0 hb.2
    have h2 : 1 / w2 ≤ (1 : ℝ) / 0.63 := one_div_le_one_div_of_le (by norm_num) hb.1
    unfold calzetti00_k_lambda
    simp only
    rw [if_pos hb.2, if_neg (not_lt.2 hb.1)]
    have := k1_strictMono h1
    norm_num at *
    linarith

/-- case: across the boundary at 0.63 micron -/
example := C58_almost_decreasing (w1 := 0.6) (w2 := 0.7) (by norm_num) (by norm_num)

/-- C58: and so is the base curve of the Noll and Salim models. -/
theorem C58_base_almost_decreasing {w1 w2 : ℝ} (h0 : 0 < w1) (h : w1 < w2) :
    l02_below_c00_above w2 < l02_below_c00_above w1 + 0.026 := by
  have hL : ∀ {x y : ℝ}, 0 < x → x < y → leitherer02_k_lambda y < leitherer02_k_lambda x := by
    intro x y hx hxy
    have hy : 1 / y < 1 / x := one_div_lt_one_div_of_lt hx hxy
    unfold leitherer02_k_lambda
    simp only
    generalize 1 / x = b at *
    generalize 1 / y = a at *
    nlinarith [mul_pos (sub_pos.2 hy) (show (0:ℝ) < 0.671 - 9.218e-3 * (a + b) + 2.62e-3 * (a^2 + a*b + b^2) by
      nlinarith [sq_nonneg (a + b - 2), sq_nonneg (a - b)])]
  unfold l02_below_c00_above
  simp only
  by_cases h2 : w2 > 0.15
  · rw [if_pos h2]
    by_cases h1 : w1 > 0.15
    · rw [if_pos h1]; exact C58_almost_decreasing h0 h
    · rw [if_neg h1]
      rw [not_lt] at h1
      have e1 : leitherer02_k_lambda 0.15 ≤ leitherer02_k_lambda w1 := by
        rcases h1.eq_or_lt with e | e
        · rw [e]
        · exact (hL h0 e).le
      have e2 : calzetti00_k_lambda 0.15 < leitherer02_k_lambda 0.15 + 0.026 := by
        unfold calzetti00_k_lambda leitherer02_k_lambda
        simp only
        rw [if_pos (by norm_num)]
        unfold RV_C00
        norm_num
      have e3 : calzetti00_k_lambda w2 < calzetti00_k_lambda 0.15 := by
        by_cases h3 : w2 < 0.63
        · exact C58_calzetti_decreasing_partial (by norm_num) h2 (Or.inl h3)
        · have h4 : 1 / w2 ≤ (1 : ℝ) / 0.63 := one_div_le_one_div_of_le (by norm_num) (not_lt.1 h3)
          unfold calzetti00_k_lambda
          simp only
          rw [if_neg h3, if_pos (by norm_num)]
          norm_num at *
          linarith
      linarith
  · have h1 : ¬ w1 > 0.15 := fun hc => h2 (hc.trans h)
    rw [if_neg h2, if_neg h1]
    linarith [hL h0 h]

/-- case: across the boundary at 0.15 micron -/
example := C58_base_almost_decreasing (w1 := 0.14) (w2 := 0.16) (by norm_num) (by norm_num)

/-- C58: normalised at V: within 0.1 per cent of `av` at 0.55 micron. -/
theorem C58_calzetti_vband (av : ℝ) (hav : 0 ≤ av) :
    |calzetti00_att_curve 0.55 av - av| ≤ 0.001 * av := by
  have hk : |calzetti00_k_lambda 0.55 - 4.05| ≤ 0.00405 := by
    unfold calzetti00_k_lambda
    simp only
    rw [if_pos (by norm_num)]
    unfold RV_C00
    rw [abs_le]; constructor <;> norm_num
  rw [abs_le] at hk
  unfold calzetti00_att_curve
  simp only
  have hkp : 0 ≤ calzetti00_k_lambda 0.55 := by linarith [hk.1]
  rw [att_eq_max, max_eq_left (by positivity)]
  generalize calzetti00_k_lambda 0.55 = k at *
  have e : av * k / 4.05 - av = av * ((k - 4.05) / 4.05) := by field_simp
  rw [e, abs_mul, abs_of_nonneg hav, mul_comm]
  apply mul_le_mul_of_nonneg_right _ hav
  rw [abs_le, le_div_iff₀ (by norm_num), div_le_iff₀ (by norm_num)]
  constructor <;> linarith [hk.1, hk.2]

/-- case: 0.7 magnitudes -/
example := C58_calzetti_vband 0.7 (by norm_num)

/-- C58: the Calzetti curve is positive exactly below `1.040·2.659/(1.857·2.659 - 4.05)` micron, which is between
3.114 and 3.116. -/
theorem C58_calzetti_positive_iff {w : ℝ} (hw : 0 < w) :
    (0 < calzetti00_k_lambda w ↔ w < 1.040 * 2.659 / (1.857 * 2.659 - 4.05)) ∧
    3.114 < (1.040 * 2.659 / (1.857 * 2.659 - 4.05) : ℝ) ∧ (1.040 * 2.659 / (1.857 * 2.659 - 4.05) : ℝ) < 3.116 := by
  refine ⟨?_, by norm_num, by norm_num⟩
  unfold calzetti00_k_lambda RV_C00
  simp only
  split_ifs with h
  · have h1 : (1 : ℝ) / 0.63 < 1 / w := one_div_lt_one_div_of_lt hw h
    have := k1_strictMono h1
    refine ⟨fun _ => h.trans (by norm_num), fun _ => ?_⟩
    norm_num at *
    linarith
  · rw [lt_div_iff₀ (by norm_num)]
    have e : 2.659 * (-1.857 + 1.040 * (1 / w)) + 4.05 = (1.040 * 2.659 - w * (1.857 * 2.659 - 4.05)) / w := by
      field_simp; ring
    rw [e, div_pos_iff_of_pos_right hw]
    constructor <;> intro h <;> linarith

/-- case: 2 micron -/
example := C58_calzetti_positive_iff (w := 2) (by norm_num)

/-- C58: so the Calzetti attenuation is identically zero in the mid infrared. -/
theorem C58_calzetti_zero_infrared {w av : ℝ} (hw : 3.116 ≤ w) (hav : 0 ≤ av) : calzetti00_att_curve w av = 0 := by
  have h0 : 0 < w := lt_of_lt_of_le (by norm_num) hw
  obtain ⟨h1, _, h3⟩ := C58_calzetti_positive_iff h0
  have hk : calzetti00_k_lambda w ≤ 0 := by
    by_contra hc; linarith [h1.1 (not_le.1 hc)]
  unfold calzetti00_att_curve
  simp only
  rw [att_eq_max]
  exact max_eq_right (div_nonpos_of_nonpos_of_nonneg (mul_nonpos_of_nonneg_of_nonpos hav hk) (by norm_num))

/-- case: 5 micron -/
example := C58_calzetti_zero_infrared (w := 5) (av := 0.7) (by norm_num) (by norm_num)

/-- C58: the Leitherer curve is above 5.472 and strictly decreasing at every wavelength. -/
theorem C58_leitherer {w1 w2 : ℝ} (h0 : 0 < w1) (h : w1 < w2) :
    5.472 < leitherer02_k_lambda w1 ∧ leitherer02_k_lambda w2 < leitherer02_k_lambda w1 := by
  have hy : 1 / w2 < 1 / w1 := one_div_lt_one_div_of_lt h0 h
  have hp : 0 < 1 / w2 := by have := h0.trans h; positivity
  unfold leitherer02_k_lambda
  simp only
  generalize 1 / w1 = y at *
  generalize 1 / w2 = x at *
  have hy0 : 0 < y := hp.trans hy
  constructor
  · nlinarith [mul_pos hy0 (show (0:ℝ) < 0.671 - 9.218e-3 * y + 2.62e-3 * y ^ 2 by nlinarith [sq_nonneg (y - 1.76)])]
  · nlinarith [mul_pos (sub_pos.2 hy) (show (0:ℝ) < 0.671 - 9.218e-3 * (x + y) + 2.62e-3 * (x^2 + x*y + y^2) by
      nlinarith [sq_nonneg (x + y - 2), sq_nonneg (x - y)])]

/-- case: 0.1 and 0.14 micron -/
example := C58_leitherer (w1 := 0.1) (w2 := 0.14) (by norm_num) (by norm_num)

/-- C58: the smooth triweight approximation is positive and strictly decreasing at all wavelengths. -/
theorem C58_triweight {w1 w2 : ℝ} (h0 : 0 < w1) (h : w1 < w2) :
    0 < triweight_k_lambda w1 ∧ triweight_k_lambda w2 < triweight_k_lambda w1 := by
  have hl : log10 w1 < log10 w2 := Real.logb_lt_logb (by norm_num) h0 h
  unfold triweight_k_lambda exp10
  simp only
  refine ⟨by positivity, ?_⟩
  apply Real.rpow_lt_rpow_of_exponent_lt (by norm_num)
  generalize log10 w1 = x at *
  generalize log10 w2 = y at *
  unfold tw_sig_slope tw_sigmoid
  simp only [tw_cuml_kern_eq]
  have hm : twC ((x - 0.5) / 0.5) ≤ twC ((y - 0.5) / 0.5) := twC_mono (by gcongr)
  have h1 := twC_nonneg ((x - 0.5) / 0.5)
  have h2 := twC_nonneg ((y - 0.5) / 0.5)
  by_cases hx : y ≤ -1
  · have e1 : twC ((x - 0.5) / 0.5) = 0 := twC_of_le (by rw [div_le_iff₀ (by norm_num)]; linarith)
    have e2 : twC ((y - 0.5) / 0.5) = 0 := twC_of_le (by rw [div_le_iff₀ (by norm_num)]; linarith)
    rw [e1, e2]; linarith
  · rw [not_le] at hx
    by_cases hx' : x ≤ -1
    · have e1 : twC ((x - 0.5) / 0.5) = 0 := twC_of_le (by rw [div_le_iff₀ (by norm_num)]; linarith)
      rw [e1]
      nlinarith [mul_nonneg h2 (by linarith : (0:ℝ) ≤ y + 1)]
    · rw [not_le] at hx'
      generalize twC ((x - 0.5) / 0.5) = a at *
      generalize twC ((y - 0.5) / 0.5) = b at *
      nlinarith [mul_nonneg (sub_nonneg.2 hm) (by linarith : (0:ℝ) ≤ y + 1), mul_nonneg h1 (by linarith : (0:ℝ) ≤ y - x)]

/-- case: 0.1 and 2 micron -/
example := C58_triweight (w1 := 0.1) (w2 := 2) (by norm_num) (by norm_num)

/-- C58: it is a pure power law of index -0.65 below 0.1 micron and of index -1.95 above 100 micron, with the same
normalisation. -/
theorem C58_triweight_power_laws {w : ℝ} (hw : 0 < w) :
    (w ≤ 0.1 → triweight_k_lambda w = 10 ^ (1.15 : ℝ) * (w / 0.1) ^ (-0.65 : ℝ)) ∧
    (100 ≤ w → triweight_k_lambda w = 10 ^ (1.15 : ℝ) * (w / 0.1) ^ (-1.95 : ℝ)) := by
  have e : ∀ s : ℝ, (10 : ℝ) ^ (1.15 + s * (log10 w + 1)) = 10 ^ (1.15 : ℝ) * (w / 0.1) ^ s := by
    intro s
    rw [Real.rpow_add (by norm_num)]
    congr 1
    rw [mul_comm, Real.rpow_mul (by norm_num)]
    congr 1
    rw [Real.rpow_add (by norm_num)]
    unfold log10
    rw [Real.rpow_logb (by norm_num) (by norm_num) hw]
    norm_num
    ring
  unfold triweight_k_lambda exp10 tw_sig_slope tw_sigmoid
  simp only [tw_cuml_kern_eq]
  constructor
  · intro h
    have hl : log10 w ≤ -1 := by
      unfold log10
      rw [Real.logb_le_iff_le_rpow (by norm_num) hw]
      refine h.trans_eq ?_
      rw [Real.rpow_neg_one]; norm_num
    rw [twC_of_le (by rw [div_le_iff₀ (by norm_num)]; linarith), ← e]
    norm_num
  · intro h
    have hl : 2 ≤ log10 w := by
      unfold log10
      rw [Real.le_logb_iff_rpow_le (by norm_num) hw]
      norm_num
      exact h
    rw [twC_of_ge (by rw [le_div_iff₀ (by norm_num)]; linarith), ← e]
    norm_num

/-- case: 0.05 micron is on the blue power law -/
example := (C58_triweight_power_laws (w := 0.05) (by norm_num)).1 (by norm_num)

/-! ### C59 -/

/-- C59: the bump lies between 0 and its amplitude, and reaches the amplitude only at its centre. -/
theorem C59_bump {x x0 g a : ℝ} (hx : 0 < x) (hx0 : 0 < x0) (hg : g ≠ 0) (ha : 0 < a) :
    0 < drude_bump x x0 g a ∧ drude_bump x x0 g a ≤ a ∧ (drude_bump x x0 g a = a ↔ x = x0) := by
  unfold drude_bump
  simp only
  have hg2 : 0 < g ^ 2 := by positivity
  have hn : 0 < x ^ 2 * g ^ 2 := by positivity
  have hd : 0 < (x ^ 2 - x0 ^ 2) ^ 2 + x ^ 2 * g ^ 2 := by positivity
  refine ⟨by positivity, ?_, ?_⟩
  · have : x ^ 2 * g ^ 2 / ((x ^ 2 - x0 ^ 2) ^ 2 + x ^ 2 * g ^ 2) ≤ 1 := by
      rw [div_le_one hd]; nlinarith [sq_nonneg (x ^ 2 - x0 ^ 2)]
    nlinarith
  · constructor
    · intro h
      have h1 : x ^ 2 * g ^ 2 / ((x ^ 2 - x0 ^ 2) ^ 2 + x ^ 2 * g ^ 2) = 1 := by
        have h2 : a * (x ^ 2 * g ^ 2 / ((x ^ 2 - x0 ^ 2) ^ 2 + x ^ 2 * g ^ 2) - 1) = 0 := by linarith
        rcases mul_eq_zero.1 h2 with h3 | h3 <;> linarith
      rw [div_eq_one_iff_eq hd.ne'] at h1
      have h2 : (x ^ 2 - x0 ^ 2) ^ 2 = 0 := by linarith
      have h3 : x ^ 2 = x0 ^ 2 := by have := pow_eq_zero_iff (two_ne_zero) |>.1 h2; linarith
      exact (sq_eq_sq₀ hx.le hx0.le).1 h3
    · intro h
      rw [h] at hn ⊢
      simp only [sub_self]
      rw [show (0:ℝ)^2 + x0^2*g^2 = x0^2*g^2 by ring, div_self hn.ne', mul_one]

/-- case: the default bump at 0.25 micron -/
example := C59_bump (x := 0.25) (x0 := 0.2175) (g := 0.035) (a := 3) (by norm_num) (by norm_num) (by norm_num) (by norm_num)

/-- C59: the bump rises strictly up to its centre and falls strictly after it. -/
theorem C59_bump_unimodal {x y x0 g a : ℝ} (hx : 0 < x) (hxy : x < y) (hg : g ≠ 0) (ha : 0 < a) :
    (y ≤ x0 → drude_bump x x0 g a < drude_bump y x0 g a) ∧ (x0 ≤ x → 0 < x0 → drude_bump y x0 g a < drude_bump x x0 g a) := by
  have hy : 0 < y := hx.trans hxy
  have key : ∀ {u v : ℝ}, 0 < u → 0 < v → v ^ 2 * (u ^ 2 - x0 ^ 2) ^ 2 > u ^ 2 * (v ^ 2 - x0 ^ 2) ^ 2 →
      drude_bump u x0 g a < drude_bump v x0 g a := by
    intro u v hu hv h
    unfold drude_bump
    simp only
    have hg2 : 0 < g ^ 2 := by positivity
    apply mul_lt_mul_of_pos_left _ ha
    rw [div_lt_div_iff₀ (by positivity) (by positivity)]
    nlinarith
  have id : ∀ u v : ℝ, v ^ 2 * (u ^ 2 - x0 ^ 2) ^ 2 - u ^ 2 * (v ^ 2 - x0 ^ 2) ^ 2
      = (v ^ 2 - u ^ 2) * ((x0 ^ 2) ^ 2 - u ^ 2 * v ^ 2) := by intro u v; ring
  have hsq : x ^ 2 < y ^ 2 := by nlinarith
  constructor
  · intro h
    apply key hx hy
    rw [gt_iff_lt, ← sub_pos, id x y]
    have h1 : y ^ 2 ≤ x0 ^ 2 := by nlinarith
    have h2 : x ^ 2 * y ^ 2 < x0 ^ 2 * x0 ^ 2 :=
      mul_lt_mul (hsq.trans_le h1) h1 (by positivity) (by positivity)
    exact mul_pos (by linarith) (by nlinarith)
  · intro h h0
    apply key hy hx
    rw [gt_iff_lt, ← sub_pos, id y x]
    have h1 : x0 ^ 2 ≤ x ^ 2 := by nlinarith
    have h2 : x0 ^ 2 * x0 ^ 2 < y ^ 2 * x ^ 2 := by
      have : x0 ^ 2 < y ^ 2 := by linarith
      exact mul_lt_mul this h1 (by positivity) (by positivity)
    nlinarith [mul_pos (sub_pos.2 hsq) (sub_pos.2 h2)]

/-- case: on the red side of the bump -/
example := (C59_bump_unimodal (x := 0.22) (y := 0.25) (x0 := 0.2175) (g := 0.035) (a := 3) (by norm_num) (by norm_num) (by norm_num)
  (by norm_num)).2 (by norm_num) (by norm_num)

/-- C59: linear in the amplitude, symmetric under `x ↦ x0²/x`, and at half maximum exactly where `|x²-x0²| = x γ`. -/
theorem C59_bump_shape {x x0 g : ℝ} (hx : 0 < x) (hx0 : 0 < x0) (hg : 0 < g) (a b s t : ℝ) :
    drude_bump x x0 g (s * a + t * b) = s * drude_bump x x0 g a + t * drude_bump x x0 g b ∧
    drude_bump (x0 ^ 2 / x) x0 g a = drude_bump x x0 g a ∧
    (a ≠ 0 → (drude_bump x x0 g a = a / 2 ↔ |x ^ 2 - x0 ^ 2| = x * g)) := by
  unfold drude_bump
  simp only
  have hd : 0 < (x ^ 2 - x0 ^ 2) ^ 2 + x ^ 2 * g ^ 2 := by positivity
  refine ⟨by ring, ?_, fun ha => ?_⟩
  · congr 1
    have hd2 : 0 < ((x0 ^ 2 / x) ^ 2 - x0 ^ 2) ^ 2 + (x0 ^ 2 / x) ^ 2 * g ^ 2 := by positivity
    rw [div_eq_div_iff hd2.ne' hd.ne']
    field_simp
    ring
  · have e1 : a * (x ^ 2 * g ^ 2 / ((x ^ 2 - x0 ^ 2) ^ 2 + x ^ 2 * g ^ 2)) = a / 2 ↔
        x ^ 2 * g ^ 2 / ((x ^ 2 - x0 ^ 2) ^ 2 + x ^ 2 * g ^ 2) = 1 / 2 := by
      rw [show a / 2 = a * (1 / 2) by ring]
      exact mul_right_inj' ha
    rw [e1, div_eq_div_iff hd.ne' two_ne_zero]
    have e2 : |x ^ 2 - x0 ^ 2| = x * g ↔ (x ^ 2 - x0 ^ 2) ^ 2 = (x * g) ^ 2 := by
      rw [sq_eq_sq_iff_abs_eq_abs, abs_of_pos (mul_pos hx hg)]
    rw [e2]
    constructor <;> intro h <;> nlinarith

/-- case: the default bump at 0.25 micron -/
example := C59_bump_shape (x := 0.25) (x0 := 0.2175) (g := 0.035) (by norm_num) (by norm_num) (by norm_num) 3 1 2 5

/-- C59: the power law is 1 at V, positive everywhere, multiplicative in the slope and decreasing in wavelength for
negative slopes. -/
theorem C59_power_law {w : ℝ} (hw : 0 < w) (s t : ℝ) :
    power_law_vband_norm 0.55 s = 1 ∧ 0 < power_law_vband_norm w s ∧
    power_law_vband_norm w (s + t) = power_law_vband_norm w s * power_law_vband_norm w t ∧
    (∀ w', w < w' → s < 0 → power_law_vband_norm w' s < power_law_vband_norm w s) ∧
    (∀ w', w < w' → 0 < s → power_law_vband_norm w s < power_law_vband_norm w' s) := by
  refine ⟨?_, plaw_pos hw s, ?_, ?_, ?_⟩
  · unfold power_law_vband_norm; simp only; rw [div_self (by norm_num), Real.one_rpow]
  · unfold power_law_vband_norm; simp only; rw [Real.rpow_add (by positivity)]
  · intro w' h hs
    unfold power_law_vband_norm; simp only
    exact Real.rpow_lt_rpow_of_neg (by positivity) (by gcongr) hs
  · intro w' h hs
    unfold power_law_vband_norm; simp only
    exact Real.rpow_lt_rpow (by positivity) (by gcongr) hs

/-- case: 0.3 micron -/
example := C59_power_law (w := 0.3) (by norm_num) (-0.5) 0.2

/-- C59: the Kriek & Conroy relation: bump strength falls with slope, 0.85 at zero slope. -/
theorem C59_eb_delta (d e : ℝ) : get_eb_from_delta 0 = 0.85 ∧ (d < e ↔ get_eb_from_delta e < get_eb_from_delta d) := by
  unfold get_eb_from_delta
  refine ⟨by norm_num, ?_⟩
  constructor <;> intro h <;> linarith

/-- The defaults used by the models meet the hypotheses. -/
example : 0 < UV_BUMP_W0 ∧ 0 < UV_BUMP_DW := by unfold UV_BUMP_W0 UV_BUMP_DW; norm_num

end Dsps.Props
