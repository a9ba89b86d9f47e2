import Verif.Props.Photometry
import Verif.Props.Dust
import Verif.Props.Utils
import Verif.Props.Cosmology
import Verif.Props.CosmoW0wa
import Verif.Lemmas.AgeWeights
import Mathlib.MeasureTheory.Integral.IntervalIntegral.FundThmCalculus
import Mathlib.Analysis.SpecialFunctions.Integrals.Basic

/-! C147: magnitudes and masses do not depend on how the curves are tabulated
(`/repo/dsps/photometry/photometry_kernels.py`, `/repo/dsps/dust/utils.py`, `/repo/dsps/utils.py`), and how an observed magnitude depends on redshift. -/
namespace Dsps.Props
open Jnp Dsps.Utils Dsps.Photometry Dsps.FlatWcdm Dsps.Dust Dsps.Lemmas Spec
open scoped BigOperators

section main
variable {n n' m m' : ℕ}

/-- the table `(x, y)` traces out the curve `F`: its points lie on `F`, and `F` is a straight line between neighbouring points -/
def Traces (F : ℝ → ℝ) (x y : Fin (n + 1) → ℝ) : Prop :=
  (∀ i, y i = F (x i)) ∧ ∀ i : Fin n, ∃ a b : ℝ, ∀ u, x i.castSucc ≤ u → u ≤ x i.succ → F u = a + b * u

/-- the same wavelengths in another unit, `c` of which make one old unit -/
def inUnit (c : ℝ) (w : Fin n → ℝ) : Fin n → ℝ := fun i => w i * c

/-- the filter `(fw', ft')` is the filter `(fw, ft)` with `p` samples put before it and further ones after it, all of zero transmission -/
def Padded (p : ℕ) (fw ft : Fin (m + 1) → ℝ) (fw' ft' : Fin (m' + 1) → ℝ) : Prop :=
  p + m ≤ m' ∧ (∀ (i : Fin (m + 1)) (j : Fin (m' + 1)), (j : ℕ) = p + i → fw' j = fw i ∧ ft' j = ft i) ∧
    ∀ j : Fin (m' + 1), ((j : ℕ) < p ∨ p + m < (j : ℕ)) → ft' j = 0

lemma interp_traces [Dtype] {F : ℝ → ℝ} {x y : Fin (n + 2) → ℝ} (hr : Resolved x) (h : Traces F x y) {u : ℝ}
    (h0 : x 0 ≤ u) (h1 : u ≤ x (Fin.last (n + 1))) : interp u x y = F u := by
  have hm := hr.strictMono.monotone
  have a0 := interpCell_left hm h0
  have a1 := interpCell_right hm h1
  rw [interp_cell hr y _ a0 a1]
  obtain ⟨a, b, hab⟩ := h.2 (interpCell x u)
  have hlt := hr.strictMono (Fin.castSucc_lt_succ (i := interpCell x u))
  rw [h.1, h.1, hab _ le_rfl hlt.le, hab _ hlt.le le_rfl, hab u a0 a1]
  have : x (interpCell x u).succ - x (interpCell x u).castSucc ≠ 0 := by linarith [hlt] |> fun h : 0 < x (interpCell x u).succ - x (interpCell x u).castSucc => h.ne'
  field_simp
  ring

lemma interp0_traces [Dtype] {F : ℝ → ℝ} {x y : Fin (n + 2) → ℝ} (hr : Resolved x) (h : Traces F x y) {u : ℝ}
    (h0 : x 0 ≤ u) (h1 : u ≤ x (Fin.last (n + 1))) : interpLR u x y 0 0 = F u := by
  have := interp_traces hr h h0 h1
  unfold interp at this
  rwa [interp_of_mem h0 h1] at this ⊢

lemma obs_flux_traces [Dtype] {F : ℝ → ℝ} {wave lum : Fin (n + 2) → ℝ} {wave' lum' : Fin (n' + 2) → ℝ} {fw ft : Fin (m + 1) → ℝ} {z : ℝ} (hz : 0 ≤ z)
    (hr : Resolved wave) (hr' : Resolved wave') (h : Traces F wave lum) (h' : Traces F wave' lum')
    (hc : ∀ i, ft i ≠ 0 → wave 0 * (1 + z) ≤ fw i ∧ fw i ≤ wave (Fin.last (n + 1)) * (1 + z))
    (hc' : ∀ i, ft i ≠ 0 → wave' 0 * (1 + z) ≤ fw i ∧ fw i ≤ wave' (Fin.last (n' + 1)) * (1 + z)) :
    obs_flux_ssp wave lum fw ft z = obs_flux_ssp wave' lum' fw ft z := by
  have hz1 : 0 < 1 + z := by linarith
  unfold obs_flux_ssp
  simp only
  congr 1
  funext i
  by_cases h0 : ft i = 0
  · simp only [h0, zero_mul, le_refl]
  · rw [interp0_scale hz1 hr (C44_resolved hz hr), interp0_scale hz1 hr' (C44_resolved hz hr'),
      interp0_traces hr h ((le_div_iff₀ hz1).2 (hc i h0).1) ((div_le_iff₀ hz1).2 (hc i h0).2),
      interp0_traces hr' h' ((le_div_iff₀ hz1).2 (hc' i h0).1) ((div_le_iff₀ hz1).2 (hc' i h0).2)]

/-- C147: a spectrum may be resampled, refined, thinned where it is straight, cut or extended: as long as both tables trace out the same curve and both reach over
the band of the filter, every magnitude and flux is the same, observed at any redshift and at rest. -/
theorem C147_spectrum_tabulation [Dtype] {F : ℝ → ℝ} {wave lum : Fin (n + 2) → ℝ} {wave' lum' : Fin (n' + 2) → ℝ} {fw ft : Fin (m + 1) → ℝ} {z : ℝ} (hz : 0 ≤ z)
    (hr : Resolved wave) (hr' : Resolved wave') (h : Traces F wave lum) (h' : Traces F wave' lum')
    (hc : ∀ i, ft i ≠ 0 → wave 0 * (1 + z) ≤ fw i ∧ fw i ≤ wave (Fin.last (n + 1)) * (1 + z))
    (hc' : ∀ i, ft i ≠ 0 → wave' 0 * (1 + z) ≤ fw i ∧ fw i ≤ wave' (Fin.last (n' + 1)) * (1 + z)) (Om0 w0 wa hub : ℝ) :
    calc_obs_mag wave lum fw ft z Om0 w0 wa hub = calc_obs_mag wave' lum' fw ft z Om0 w0 wa hub ∧
    calc_obs_mag_no_dimming wave lum fw ft z = calc_obs_mag_no_dimming wave' lum' fw ft z ∧
    (z = 0 → calc_rest_mag wave lum fw ft = calc_rest_mag wave' lum' fw ft ∧ calc_rest_flux wave lum fw ft = calc_rest_flux wave' lum' fw ft) := by
  have hf := obs_flux_traces hz hr hr' h h' hc hc'
  refine ⟨by unfold calc_obs_mag; rw [hf], by unfold calc_obs_mag_no_dimming; rw [hf], ?_⟩
  rintro rfl
  have hrest : calc_rest_flux wave lum fw ft = calc_rest_flux wave' lum' fw ft := by
    unfold obs_flux_ssp at hf
    simp only [add_zero, mul_one] at hf
    unfold calc_rest_flux rest_flux_ssp
    simp only
    rw [hf]
  exact ⟨by unfold calc_rest_mag; rw [hrest], hrest⟩

lemma trapz_inUnit (x y : Fin (n + 1) → ℝ) (c : ℝ) : trapz (inUnit c x) y = trapz x y * c := by
  unfold inUnit
  rw [trapz_eq, trapz_eq, Finset.sum_mul]
  exact Finset.sum_congr rfl fun i _ => by ring

lemma trapz_inUnit_div (x y : Fin (n + 1) → ℝ) {c : ℝ} (hc : c ≠ 0) : trapz (inUnit c x) (fun i => y i / inUnit c x i) = trapz x (fun i => y i / x i) := by
  rw [trapz_inUnit, trapz_eq, trapz_eq, Finset.sum_mul]
  refine Finset.sum_congr rfl fun i _ => ?_
  unfold inUnit
  rw [← div_div, ← div_div]
  field_simp

/-- C147: angstroms, nanometres or microns: all magnitudes and fluxes are the same when the wavelengths of the spectrum and of the filter are both in another unit, and
the effective wavelength of the filter comes out in that unit. -/
theorem C147_wavelength_units [Dtype] {wave : Fin (n + 2) → ℝ} (lum : Fin (n + 2) → ℝ) (fw ft : Fin (m + 1) → ℝ) {z c : ℝ} (hz : 0 ≤ z) (hc : 0 < c)
    (hr : Resolved wave) (hr' : Resolved (inUnit c wave)) (Om0 w0 wa hub : ℝ) :
    calc_obs_mag (inUnit c wave) lum (inUnit c fw) ft z Om0 w0 wa hub = calc_obs_mag wave lum fw ft z Om0 w0 wa hub ∧
    calc_obs_mag_no_dimming (inUnit c wave) lum (inUnit c fw) ft z = calc_obs_mag_no_dimming wave lum fw ft z ∧
    calc_rest_mag (inUnit c wave) lum (inUnit c fw) ft = calc_rest_mag wave lum fw ft ∧
    calc_rest_flux (inUnit c wave) lum (inUnit c fw) ft = calc_rest_flux wave lum fw ft ∧
    get_filter_effective_wavelength (inUnit c fw) ft z = get_filter_effective_wavelength fw ft z * c := by
  have hab : flux_ab0_at_10pc (inUnit c fw) ft = flux_ab0_at_10pc fw ft := trapz_inUnit_div fw _ hc.ne'
  have hobs : ∀ z, 0 ≤ z → obs_flux_ssp (inUnit c wave) lum (inUnit c fw) ft z = obs_flux_ssp wave lum fw ft z := by
    intro z hz
    have e : ∀ i, interpLR (inUnit c fw i) (fun j => inUnit c wave j * (1 + z)) lum 0 0 = interpLR (fw i) (fun j => wave j * (1 + z)) lum 0 0 := fun i => by
      have e1 : (fun j => inUnit c wave j * (1 + z)) = fun j => (wave j * (1 + z)) * c := by funext j; unfold inUnit; ring
      have r1 := C44_resolved hz hr'
      rw [e1] at r1 ⊢
      rw [interp0_scale hc (C44_resolved hz hr) r1]
      unfold inUnit
      rw [mul_div_cancel_right₀ _ hc.ne']
    unfold obs_flux_ssp
    simp only [e]
    exact trapz_inUnit_div fw _ hc.ne'
  have hrest : calc_rest_flux (inUnit c wave) lum (inUnit c fw) ft = calc_rest_flux wave lum fw ft := by
    have := hobs 0 le_rfl
    unfold obs_flux_ssp at this
    simp only [add_zero, mul_one] at this
    unfold calc_rest_flux rest_flux_ssp
    simp only
    rw [hab, ← this]
  refine ⟨by unfold calc_obs_mag; rw [hab, hobs z hz], by unfold calc_obs_mag_no_dimming; rw [hab, hobs z hz], by unfold calc_rest_mag; rw [hrest], hrest, ?_⟩
  unfold get_filter_effective_wavelength
  simp only
  rw [trapz_inUnit, trapz_inUnit]
  have : trapz fw (fun i => ft i * inUnit c fw i) = trapz fw (fun i => ft i * fw i) * c := by
    rw [mul_comm, ← trapz_smul]; congr 1; funext i; unfold inUnit; ring
  rw [this]
  by_cases h0 : trapz fw ft = 0
  · rw [h0]; simp
  · field_simp

lemma trapz_padded {p : ℕ} {fw ft y : Fin (m + 1) → ℝ} {fw' ft' y' : Fin (m' + 1) → ℝ} (h : Padded p fw ft fw' ft') (h0 : ft 0 = 0) (h1 : ft (Fin.last m) = 0)
    (hy : ∀ (i : Fin (m + 1)) (j : Fin (m' + 1)), (j : ℕ) = p + i → y' j = y i) (hy' : ∀ j, ft' j = 0 → y' j = 0) : trapz fw' y' = trapz fw y := by
  obtain ⟨hp, hin, hout⟩ := h
  rw [trapz_eq, trapz_eq]
  symm
  refine Fintype.sum_of_injective (fun i : Fin m => (⟨p + i, by omega⟩ : Fin m')) (fun i j hij => ?_) _ _ (fun j hj => ?_) (fun i => ?_)
  · simp only [Fin.mk.injEq, Nat.add_left_cancel_iff] at hij; exact Fin.ext hij
  · have hj' : (j : ℕ) < p ∨ p + m ≤ j := by
      by_contra hc
      push Not at hc
      exact hj ⟨⟨j - p, by omega⟩, Fin.ext (by simp only; omega)⟩
    have z0 : ft' j.castSucc = 0 := by
      rcases hj' with hj' | hj'
      · exact hout _ (Or.inl (by simpa using hj'))
      · rcases hj'.lt_or_eq with hl | he
        · exact hout _ (Or.inr (by simpa using hl))
        · rw [(hin (Fin.last m) _ (by simp [← he])).2, h1]
    have z1 : ft' j.succ = 0 := by
      rcases hj' with hj' | hj'
      · rcases (Nat.succ_le_of_lt hj').lt_or_eq with hl | he
        · exact hout _ (Or.inl (by simpa using hl))
        · rw [(hin 0 _ (by simp; omega)).2, h0]
      · exact hout _ (Or.inr (by simp; omega))
    rw [hy' _ z0, hy' _ z1]
    ring
  · rw [hy i.castSucc (Fin.castSucc ⟨p + i, _⟩) (by simp), hy i.succ (Fin.succ ⟨p + i, _⟩) (by simp; omega),
      (hin i.castSucc (Fin.castSucc ⟨p + i, _⟩) (by simp)).1, (hin i.succ (Fin.succ ⟨p + i, _⟩) (by simp; omega)).1]

/-- C147: samples of zero transmission put before or after a filter curve whose own ends are zero change no magnitude, no flux and no effective wavelength. -/
theorem C147_filter_padding [Dtype] {p : ℕ} (wave lum : Fin (n + 2) → ℝ) {fw ft : Fin (m + 1) → ℝ} {fw' ft' : Fin (m' + 1) → ℝ} (h : Padded p fw ft fw' ft')
    (h0 : ft 0 = 0) (h1 : ft (Fin.last m) = 0) (z Om0 w0 wa hub : ℝ) :
    calc_obs_mag wave lum fw' ft' z Om0 w0 wa hub = calc_obs_mag wave lum fw ft z Om0 w0 wa hub ∧
    calc_obs_mag_no_dimming wave lum fw' ft' z = calc_obs_mag_no_dimming wave lum fw ft z ∧
    calc_rest_mag wave lum fw' ft' = calc_rest_mag wave lum fw ft ∧
    calc_rest_flux wave lum fw' ft' = calc_rest_flux wave lum fw ft ∧
    get_filter_effective_wavelength fw' ft' z = get_filter_effective_wavelength fw ft z := by
  have key : ∀ g : ℝ → ℝ, trapz fw' (fun j => ft' j * g (fw' j)) = trapz fw (fun j => ft j * g (fw j)) := fun g =>
    trapz_padded h h0 h1 (fun i j hij => by rw [(h.2.1 i j hij).1, (h.2.1 i j hij).2]) fun j hj => by rw [hj, zero_mul]
  have hab : flux_ab0_at_10pc fw' ft' = flux_ab0_at_10pc fw ft := by
    have := key fun x => AB0 / x
    simpa only [flux_ab0_at_10pc, mul_div_assoc] using this
  have hobs : obs_flux_ssp wave lum fw' ft' z = obs_flux_ssp wave lum fw ft z := by
    have := key fun x => interpLR x (fun j => wave j * (1 + z)) lum 0 0 / x
    simpa only [obs_flux_ssp, mul_div_assoc] using this
  have hrest : calc_rest_flux wave lum fw' ft' = calc_rest_flux wave lum fw ft := by
    have := key fun x => interpLR x wave lum 0 0 / x
    unfold calc_rest_flux
    simp only [hab]
    congr 1
    simpa only [rest_flux_ssp, mul_div_assoc] using this
  refine ⟨by unfold calc_obs_mag; rw [hab, hobs], by unfold calc_obs_mag_no_dimming; rw [hab, hobs], by unfold calc_rest_mag; rw [hrest], hrest, ?_⟩
  unfold get_filter_effective_wavelength
  simp only
  have k1 := key fun _ => 1
  simp only [mul_one] at k1
  rw [k1, key fun x => x]

/-- C147: the ends must be zero: one sample of zero transmission after a filter that does not end in zero moves its effective wavelength. -/
theorem C147_padding_open_filter :
    get_filter_effective_wavelength (n := 1) ![1, 2] ![1, 1] 0 = 3 / 2 ∧ get_filter_effective_wavelength (n := 2) ![1, 2, 3] ![1, 1, 0] 0 = 5 / 3 := by
  unfold get_filter_effective_wavelength
  simp only
  constructor
  · rw [trapz_eq, trapz_eq]; simp [Fin.sum_univ_succ]; norm_num
  · rw [trapz_eq, trapz_eq]; simp [Fin.sum_univ_succ]; norm_num

/-! ### redshift -/

lemma obs_flux_dims [Dtype] {wave lum : Fin (n + 2) → ℝ} {fw ft : Fin (m + 1) → ℝ} {y z : ℝ} (hr : Resolved wave) (hf : GoodFilter fw ft) (hl : Monotone lum)
    (hy : 0 ≤ y) (hyz : y ≤ z) (hc : ∀ i, ft i ≠ 0 → wave 0 * (1 + z) ≤ fw i ∧ fw i ≤ wave (Fin.last (n + 1)) * (1 + y)) :
    obs_flux_ssp wave lum fw ft z ≤ obs_flux_ssp wave lum fw ft y := by
  have hy1 : 0 < 1 + y := by linarith
  have hz1 : 0 < 1 + z := by linarith
  have hm := hr.strictMono.monotone
  unfold obs_flux_ssp
  simp only
  refine trapz_mono hf.1 fun i => ?_
  by_cases h0 : ft i = 0
  · simp only [h0, zero_mul, le_refl]
  have hp := hf.2.1 i
  refine div_le_div_of_nonneg_right (mul_le_mul_of_nonneg_left ?_ (hf.2.2 i)) hp.le
  rw [interp0_scale hz1 hr (C44_resolved (hy.trans hyz) hr), interp0_scale hy1 hr (C44_resolved hy hr)]
  have hle : fw i / (1 + z) ≤ fw i / (1 + y) := div_le_div_of_nonneg_left hp.le hy1 (by linarith)
  have a0 : wave 0 ≤ fw i / (1 + z) := (le_div_iff₀ hz1).2 (hc i h0).1
  have a1 : fw i / (1 + y) ≤ wave (Fin.last (n + 1)) := (div_le_iff₀ hy1).2 (hc i h0).2
  have := interp_mono hm hl hle
  unfold interp at this
  simp only at this
  rwa [interp_of_mem a0 (hle.trans a1), interp_of_mem (a0.trans hle) a1] at this ⊢

/-- C147: a source whose luminosity per unit frequency does not fall with wavelength is observed fainter when it is moved to a higher redshift, through any filter the
spectrum covers at both redshifts: at all redshifts in flat LCDM, and up to redshift 40 in w0wa cosmologies with neither phantom nor stiff dark energy. -/
theorem C147_fades_with_redshift [Dtype] {wave lum : Fin (n + 2) → ℝ} {fw ft : Fin (m + 1) → ℝ} {y z Om0 h w0 wa : ℝ} (hr : Resolved wave)
    (hf : GoodFilter fw ft) (hl : Monotone lum) (hy : 0 < y) (hyz : y < z)
    (hc : ∀ i, ft i ≠ 0 → wave 0 * (1 + z) ≤ fw i ∧ fw i ≤ wave (Fin.last (n + 1)) * (1 + y))
    (hpos : 0 < obs_flux_ssp wave lum fw ft z / flux_ab0_at_10pc fw ft) (hO : PhysicalOm Om0) (hh : 0 < h) :
    calc_obs_mag_no_dimming wave lum fw ft y ≤ calc_obs_mag_no_dimming wave lum fw ft z ∧
    calc_obs_mag wave lum fw ft y Om0 (-1) 0 h < calc_obs_mag wave lum fw ft z Om0 (-1) 0 h ∧
    (NonPhantom w0 wa → NonStiff w0 wa → z ≤ 40 → calc_obs_mag wave lum fw ft y Om0 w0 wa h < calc_obs_mag wave lum fw ft z Om0 w0 wa h) := by
  have hA := ab0_nonneg hf
  have hfl := div_le_div_of_nonneg_right (obs_flux_dims hr hf hl hy.le hyz.le hc) hA
  have h1 : calc_obs_mag_no_dimming wave lum fw ft y ≤ calc_obs_mag_no_dimming wave lum fw ft z := by
    unfold calc_obs_mag_no_dimming
    simp only
    have := log10_le hpos hfl
    nlinarith
  have h2 : ∀ w0 wa, 0 < comoving_distance_to_z y Om0 w0 wa h → comoving_distance_to_z y Om0 w0 wa h < comoving_distance_to_z z Om0 w0 wa h →
      calc_obs_mag wave lum fw ft y Om0 w0 wa h < calc_obs_mag wave lum fw ft z Om0 w0 wa h := by
    intro w0 wa hd hdc
    rw [C48_obs_mag, C48_obs_mag]
    have hz0 : 0 < z := hy.trans hyz
    have hl1 : Real.logb 10 (1 + y) < Real.logb 10 (1 + z) := Real.logb_lt_logb (by norm_num) (by linarith) (by linarith)
    have hl2 : Real.logb 10 (comoving_distance_to_z y Om0 w0 wa h) < Real.logb 10 (comoving_distance_to_z z Om0 w0 wa h) := Real.logb_lt_logb (by norm_num) hd hdc
    have e : ∀ u, 0 < u → 0 < comoving_distance_to_z u Om0 w0 wa h → distance_modulus_to_z u Om0 w0 wa h =
        5 * Real.logb 10 (comoving_distance_to_z u Om0 w0 wa h) + 5 * Real.logb 10 (1 + u) + 5 * Real.logb 10 100000 := by
      intro u hu hd
      unfold distance_modulus_to_z luminosity_distance_to_z
      have e5 : (1e5 : ℝ) = 100000 := by norm_num
      have e6 : (5.0 : ℝ) = 5 := by norm_num
      simp only [e5, e6, log10]
      rw [Real.logb_mul (by positivity) (by norm_num), Real.logb_mul hd.ne' (by linarith)]
      ring
    rw [e y hy hd, e z hz0 (hd.trans hdc)]
    linarith
  have hp := fun w0 wa => (C49_positive hy hO hh w0 wa).1
  exact ⟨h1, h2 _ _ (hp _ _) (C50_comoving_increasing hO hh hy.le hyz), fun np ns h40 => h2 _ _ (hp _ _) (C96_comoving_increasing hO np ns hh hy.le hyz h40)⟩

/-! ### star formation histories -/

lemma integral_straight {F : ℝ → ℝ} {p q a b : ℝ} (hpq : p ≤ q) (h : ∀ u, p ≤ u → u ≤ q → F u = a + b * u) :
    IntervalIntegrable F MeasureTheory.volume p q ∧ ∫ u in p..q, F u = (q - p) * (F p + F q) / 2 := by
  have hc : Set.EqOn F (fun u => a + b * u) (Set.uIcc p q) := fun u hu => by
    rw [Set.uIcc_of_le hpq] at hu; exact h u hu.1 hu.2
  have hcont : Continuous fun u : ℝ => a + b * u := by fun_prop
  refine ⟨(hcont.intervalIntegrable p q).congr fun u hu => (hc (Set.uIoc_subset_uIcc hu)).symm, ?_⟩
  rw [intervalIntegral.integral_congr hc, h p le_rfl hpq, h q hpq le_rfl, intervalIntegral.integral_add (by simp) (by fun_prop |> fun h : Continuous fun u : ℝ => b * u => h.intervalIntegrable p q), intervalIntegral.integral_const_mul, integral_id]
  simp
  ring

/-- C147: the mass a galaxy has formed by each time of its table is the integral of the history its table traces out from 1 Myr (where the code starts it at its floor). -/
theorem C147_mass_is_integral {F : ℝ → ℝ} {t s : Fin (n + 1) → ℝ} (ht : Monotone t) (h0 : 0.001 ≤ t 0) (h : Traces F t s)
    (hF : F 0.001 = 1e-14) {a b : ℝ} (hab : ∀ u, 0.001 ≤ u → u ≤ t 0 → F u = a + b * u) (k : Fin (n + 1)) :
    IntervalIntegrable F MeasureTheory.volume 0.001 (t k) ∧ cumulative_mstar_formed t s k = 1e9 * ∫ u in (0.001)..(t k), F u := by
  have ht0 : ∀ k, (0.001 : ℝ) ≤ t k := fun k => h0.trans (ht (Fin.zero_le k))
  induction k using Fin.induction with
  | zero =>
    obtain ⟨h1, h2⟩ := integral_straight h0 hab
    refine ⟨h1, ?_⟩
    rw [(C12_mstar_formula t s).1, h2, hF, h.1 0, trapezoidArea]
  | succ k ih =>
    obtain ⟨a', b', hk⟩ := h.2 k
    obtain ⟨h1, h2⟩ := integral_straight (ht (Fin.castSucc_lt_succ (i := k)).le) hk
    refine ⟨ih.1.trans h1, ?_⟩
    rw [(C12_mstar_formula t s).2, ih.2, ← intervalIntegral.integral_add_adjacent_intervals ih.1 h1, h2, h.1, h.1, trapezoidArea]
    ring

/-- C147: two tables that trace out the same star formation history give the same formed mass at every time they share, however finely either is sampled. -/
theorem C147_history_tabulation {F : ℝ → ℝ} {t s : Fin (n + 1) → ℝ} {t' s' : Fin (n' + 1) → ℝ} (ht : Monotone t) (ht' : Monotone t') (h0 : 0.001 ≤ t 0) (h0' : 0.001 ≤ t' 0)
    (h : Traces F t s) (h' : Traces F t' s') (hF : F 0.001 = 1e-14) {a b : ℝ} (hab : ∀ u, 0.001 ≤ u → u ≤ max (t 0) (t' 0) → F u = a + b * u)
    (k : Fin (n + 1)) (k' : Fin (n' + 1)) (hk : t k = t' k') : cumulative_mstar_formed t s k = cumulative_mstar_formed t' s' k' := by
  rw [(C147_mass_is_integral ht h0 h hF (fun u h1 h2 => hab u h1 (h2.trans (le_max_left _ _))) k).2,
    (C147_mass_is_integral ht' h0' h' hF (fun u h1 h2 => hab u h1 (h2.trans (le_max_right _ _))) k').2, hk]
end main

section
attribute [local instance] Dtype.float64

/-- a spectrum that rises and then stays level -/
noncomputable def caseCurve (u : ℝ) : ℝ := min u 4500
/-- one table of it -/
noncomputable def caseLevel : Fin 3 → ℝ := ![1000, 4500, 4500]
/-- other wavelengths -/
noncomputable def caseWave2 : Fin 4 → ℝ := ![500, 3000, 4500, 20000]
/-- another table of it -/
noncomputable def caseLevel2 : Fin 4 → ℝ := ![500, 3000, 4500, 4500]

theorem caseWave2_resolved : Resolved (n := 2) caseWave2 := by
  intro i; show (2:ℝ)⁻¹ ^ 104 < _; fin_cases i <;> simp [caseWave2] <;> norm_num
theorem case_traces : Traces (n := 2) caseCurve caseWave caseLevel := by
  refine ⟨fun i => by fin_cases i <;> simp [caseCurve, caseWave, caseLevel] <;> norm_num, fun i => ?_⟩
  fin_cases i
  · exact ⟨0, 1, fun u _ h => by
      have h : u ≤ 4500 := h
      rw [caseCurve, min_eq_left h]; ring⟩
  · exact ⟨4500, 0, fun u h _ => by
      have h : (4500 : ℝ) ≤ u := h
      rw [caseCurve, min_eq_right h]; ring⟩
theorem case_traces2 : Traces (n := 3) caseCurve caseWave2 caseLevel2 := by
  refine ⟨fun i => by fin_cases i <;> simp [caseCurve, caseWave2, caseLevel2] <;> norm_num, fun i => ?_⟩
  fin_cases i
  · exact ⟨0, 1, fun u _ h => by
      have h : u ≤ 3000 := h
      rw [caseCurve, min_eq_left (by linarith)]; ring⟩
  · exact ⟨0, 1, fun u _ h => by
      have h : u ≤ 4500 := h
      rw [caseCurve, min_eq_left h]; ring⟩
  · exact ⟨4500, 0, fun u h _ => by
      have h : (4500 : ℝ) ≤ u := h
      rw [caseCurve, min_eq_right h]; ring⟩

example := C147_spectrum_tabulation (n := 1) (n' := 2) (m := 2) (fw := caseFW) (ft := caseFT) (z := 1 / 2) (by norm_num) caseWave_resolved caseWave2_resolved case_traces case_traces2
  (fun i _ => case_cover_z i) (fun i _ => by fin_cases i <;> norm_num [caseWave2, caseFW, Fin.last]) 0.3 (-1) 0 0.7
/-- angstroms as nanometres -/
example := C147_wavelength_units (n := 1) (m := 2) (wave := caseWave) caseLum caseFW caseFT (z := 1 / 2) (c := 1 / 10) (by norm_num) (by norm_num) caseWave_resolved
  (by intro i; show (2:ℝ)⁻¹ ^ 104 < _; fin_cases i <;> simp [inUnit, caseWave] <;> norm_num) 0.3 (-1) 0 0.7
/-- two zeros before and one after -/
example := C147_filter_padding (n := 1) (m := 2) (m' := 5) (p := 2) caseWave caseLum (fw := caseFW) (ft := caseFT) (fw' := ![100, 200, 4000, 5000, 6000, 9000])
  (ft' := ![0, 0, 0, 1, 0, 0]) ⟨by norm_num, fun i j h => by fin_cases i <;> fin_cases j <;> first | (exfalso; revert h; decide) | exact ⟨rfl, rfl⟩,
    fun j h => by fin_cases j <;> first | rfl | (exfalso; revert h; decide)⟩ rfl rfl (1 / 2) 0.3 (-1) 0 0.7

theorem case_level_flux : 0 < obs_flux_ssp (n := 1) (m := 2) caseWave caseLevel caseFW caseFT (1 / 2 + 1 / 4) / flux_ab0_at_10pc caseFW caseFT := by
  have hm : Monotone fun j => caseWave j * (1 + (1 / 2 + 1 / 4)) := fun i j h => by
    have := caseWave_mono.monotone h; show _ * _ ≤ _ * _; linarith
  have h := (C42_monotone (n := 1) (m := 2) hm case_good (z := 0) (by norm_num)
    (f := fun _ => 1 * 1.13492e-13) (g := caseLevel) (by intro i; fin_cases i <;> norm_num [caseLevel]) 0.3 (-1) 0 0.7).1
  rw [(C40_ab_zero_point_rest (n := 1) (m := 2) hm caseFW caseFT (c := 1) case_ab.ne'
    (by intro i; fin_cases i <;> norm_num [caseWave, caseFW, Fin.last])).1] at h
  exact lt_of_lt_of_le one_pos h

example := C147_fades_with_redshift (n := 1) (m := 2) (wave := caseWave) (lum := caseLevel) (fw := caseFW) (ft := caseFT) (y := 1 / 2) (z := 1 / 2 + 1 / 4) (Om0 := 0.3) (h := 0.7)
  (w0 := -0.9) (wa := 0.1) caseWave_resolved case_good
  (by intro i j h; fin_cases i <;> fin_cases j <;> first | (exfalso; revert h; decide) | norm_num [caseLevel])
  (by norm_num) (by norm_num) (fun i _ => by fin_cases i <;> norm_num [caseWave, caseFW, Fin.last]) case_level_flux ⟨by norm_num, by norm_num⟩ (by norm_num)

/-- a history that rises until 2 Gyr and then stays level -/
noncomputable def caseHist (u : ℝ) : ℝ := min (u + (1e-14 - 0.001)) (2 + (1e-14 - 0.001))
theorem case_hist_rise {u : ℝ} (h : u ≤ 2) : caseHist u = (1e-14 - 0.001) + 1 * u := by
  rw [caseHist, min_eq_left (by linarith)]; ring
theorem case_hist_level {u : ℝ} (h : 2 ≤ u) : caseHist u = (2 + (1e-14 - 0.001)) + 0 * u := by
  rw [caseHist, min_eq_right (by linarith)]; ring
theorem case_hist1 : Traces (n := 2) caseHist ![1, 2, 3] (fun i => caseHist (![1, 2, 3] i)) := by
  refine ⟨fun i => rfl, fun i => ?_⟩
  fin_cases i
  · exact ⟨_, _, fun u _ h => case_hist_rise h⟩
  · exact ⟨_, _, fun u h _ => case_hist_level h⟩
theorem case_hist2 : Traces (n := 3) caseHist ![1 / 2, 2, 5 / 2, 3] (fun i => caseHist (![1 / 2, 2, 5 / 2, 3] i)) := by
  refine ⟨fun i => rfl, fun i => ?_⟩
  fin_cases i
  · exact ⟨_, _, fun u _ h => case_hist_rise h⟩
  · exact ⟨_, _, fun u h _ => case_hist_level h⟩
  · exact ⟨_, _, fun u h _ => case_hist_level ((by norm_num : (2 : ℝ) ≤ 5 / 2).trans h)⟩

example := C147_mass_is_integral (n := 2) (Case.sm3 (by norm_num) (by norm_num)).monotone (by norm_num) case_hist1 (by rw [case_hist_rise (by norm_num)]; norm_num)
  (a := 1e-14 - 0.001) (b := 1) (fun u _ h => case_hist_rise (h.trans (by norm_num))) 2
example := C147_history_tabulation (n := 2) (n' := 3) (Case.sm3 (by norm_num) (by norm_num)).monotone (Case.sm4 (by norm_num) (by norm_num) (by norm_num)).monotone
  (by norm_num) (by norm_num) case_hist1 case_hist2 (by rw [case_hist_rise (by norm_num)]; norm_num) (a := 1e-14 - 0.001) (b := 1)
  (fun u _ h => case_hist_rise (h.trans (max_le (by norm_num) (by norm_num)))) 2 3 rfl
end

end Dsps.Props
