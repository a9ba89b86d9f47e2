import Verif.Props.Dust
import Verif.Props.Photometry
import Verif.Props.SspWeights

/-! C143: dust in magnitudes and colours: `/repo/dsps/dust/att_curves.py` applied to the spectra that enter
`/repo/dsps/photometry/photometry_kernels.py`. -/
namespace Dsps.Props
open Jnp Dsps.Utils Dsps.Photometry Dsps.FlatWcdm Dsps.Dust Dsps.Lemmas Dsps.SspWeights Spec
open scoped BigOperators

section main
variable {n m m' : ℕ} [Dtype]

/-- the spectrum behind a dust screen: each sample times the transmitted fraction for the reddening curve value there -/
noncomputable def screened (lum k : Fin (n + 2) → ℝ) (av : ℝ) (fl : ℝ := 0) : Fin (n + 2) → ℝ :=
  fun j => lum j * frac_transmission_from_k_lambda (k j) av fl

/-- the filter transmits only wavelengths between the samples `p` and `q` of the spectrum, redshifted to `z` -/
def InBand (wave : Fin (n + 2) → ℝ) (fw ft : Fin (m + 1) → ℝ) (z : ℝ) (p q : Fin (n + 2)) : Prop :=
  ∀ i, ft i ≠ 0 → wave p * (1 + z) ≤ fw i ∧ fw i < wave q * (1 + z)

/-- only the samples between `p` and `q` matter to a filter within them -/
lemma obs_flux_local {wave f g : Fin (n + 2) → ℝ} {fw ft : Fin (m + 1) → ℝ} {z : ℝ} {p q : Fin (n + 2)} (hw : StrictMono wave) (hz : -1 < z) (hb : InBand wave fw ft z p q)
    (h : ∀ j, p ≤ j → j ≤ q → f j = g j) : obs_flux_ssp wave f fw ft z = obs_flux_ssp wave g fw ft z := by
  have hm : StrictMono fun j => wave j * (1 + z) := fun i j hij => mul_lt_mul_of_pos_right (hw hij) (by linarith)
  unfold obs_flux_ssp
  simp only
  congr 1
  funext i
  by_cases h0 : ft i = 0
  · rw [h0, zero_mul, zero_mul]
  · rw [interp0_congr hm (hb i h0).1 (hb i h0).2 h]

/-- fluxes behind the screen, for transmitted fractions between `a` and `b` in the band -/
lemma screened_flux {wave lum T : Fin (n + 2) → ℝ} {fw ft : Fin (m + 1) → ℝ} {z a b : ℝ} {p q : Fin (n + 2)} (hw : StrictMono wave) (hf : GoodFilter fw ft) (hz : -1 < z)
    (hb : InBand wave fw ft z p q) (hl : ∀ j, 0 ≤ lum j) (hT : ∀ j, p ≤ j → j ≤ q → a ≤ T j ∧ T j ≤ b) :
    a * obs_flux_ssp wave lum fw ft z ≤ obs_flux_ssp wave (fun j => lum j * T j) fw ft z ∧
      obs_flux_ssp wave (fun j => lum j * T j) fw ft z ≤ b * obs_flux_ssp wave lum fw ft z := by
  classical
  constructor
  · rw [← obs_flux_smul, obs_flux_local (g := fun j => if p ≤ j ∧ j ≤ q then lum j * T j else a * lum j) hw hz hb (f := fun j => lum j * T j) fun j h1 h2 => by
      rw [if_pos ⟨h1, h2⟩]]
    refine obs_flux_mono hw.monotone hf hz fun j => ?_
    split_ifs with h
    · nlinarith [hl j, (hT j h.1 h.2).1]
    · exact le_rfl
  · rw [← obs_flux_smul, obs_flux_local (g := fun j => if p ≤ j ∧ j ≤ q then lum j * T j else b * lum j) hw hz hb (f := fun j => lum j * T j) fun j h1 h2 => by
      rw [if_pos ⟨h1, h2⟩]]
    refine obs_flux_mono hw.monotone hf hz fun j => ?_
    split_ifs with h
    · nlinarith [hl j, (hT j h.1 h.2).2]
    · exact le_rfl

lemma ab0_pos_of {F A : ℝ} (hA : 0 ≤ A) (h : 0 < F / A) : 0 < A ∧ 0 < F := by
  rcases hA.lt_or_eq with h1 | h1
  · exact ⟨h1, by by_contra hc; exact absurd h (not_lt.mpr (div_nonpos_of_nonpos_of_nonneg (not_lt.mp hc) hA))⟩
  · rw [← h1, div_zero] at h; exact absurd h (lt_irrefl _)

section
variable {wave lum k k' : Fin (n + 2) → ℝ} {fw ft : Fin (m + 1) → ℝ} {fw' ft' : Fin (m' + 1) → ℝ} {z av av' fl lo hi : ℝ} {p q : Fin (n + 2)}

lemma screened_mag (hw : StrictMono wave) (hf : GoodFilter fw ft) (hz : -1 < z) (hb : InBand wave fw ft z p q) (hl : ∀ j, 0 ≤ lum j)
    (hpos : 0 < obs_flux_ssp wave lum fw ft z / flux_ab0_at_10pc fw ft) (hT : ∀ j, 0 < frac_transmission_from_k_lambda (k j) av fl)
    (hA : ∀ j, p ≤ j → j ≤ q → lo ≤ -2.5 * Real.logb 10 (frac_transmission_from_k_lambda (k j) av fl) ∧ -2.5 * Real.logb 10 (frac_transmission_from_k_lambda (k j) av fl) ≤ hi) :
    calc_obs_mag_no_dimming wave lum fw ft z + lo ≤ calc_obs_mag_no_dimming wave (screened lum k av fl) fw ft z ∧
      calc_obs_mag_no_dimming wave (screened lum k av fl) fw ft z ≤ calc_obs_mag_no_dimming wave lum fw ft z + hi := by
  obtain ⟨hab, hF⟩ := ab0_pos_of (ab0_nonneg hf) hpos
  have hp : ∀ x : ℝ, (0:ℝ) < 10 ^ (-0.4 * x) := fun x => Real.rpow_pos_of_pos (by norm_num) _
  have key := screened_flux (a := 10 ^ (-0.4 * hi)) (b := 10 ^ (-0.4 * lo)) (T := fun j => frac_transmission_from_k_lambda (k j) av fl) hw hf hz hb hl fun j h1 h2 => by
    have e := hA j h1 h2
    have r : frac_transmission_from_k_lambda (k j) av fl = 10 ^ (Real.logb 10 (frac_transmission_from_k_lambda (k j) av fl)) :=
      (Real.rpow_logb (by norm_num) (by norm_num) (hT j)).symm
    constructor
    · rw [r]; exact Real.rpow_le_rpow_of_exponent_le (by norm_num) (by linarith [e.2])
    · conv_lhs => rw [r]
      exact Real.rpow_le_rpow_of_exponent_le (by norm_num) (by linarith [e.1])
  have hF' := lt_of_lt_of_le (mul_pos (hp hi) hF) key.1
  have l := fun x => Real.logb_rpow (b := 10) (x := x) (by norm_num) (by norm_num)
  have c1 := Real.logb_le_logb_of_le (b := 10) (by norm_num) (mul_pos (hp hi) hF) key.1
  have c2 := Real.logb_le_logb_of_le (b := 10) (by norm_num) hF' key.2
  rw [Real.logb_mul (hp _).ne' hF.ne', l] at c1 c2
  unfold calc_obs_mag_no_dimming screened log10
  simp only
  rw [Real.logb_div hF.ne' hab.ne', Real.logb_div hF'.ne' hab.ne']
  constructor <;> linarith

lemma obs_mag_split (lum : Fin (n + 2) → ℝ) (Om0 w0 wa h : ℝ) :
    calc_obs_mag wave lum fw ft z Om0 w0 wa h = calc_obs_mag_no_dimming wave lum fw ft z + cosmological_dimming z Om0 w0 wa h := rfl

/-- C143: **the dimming of a band lies between the least and the largest extinction within the band.** -/
theorem C143_band_extinction (hw : StrictMono wave) (hf : GoodFilter fw ft) (hz : -1 < z) (hb : InBand wave fw ft z p q) (hl : ∀ j, 0 ≤ lum j)
    (hpos : 0 < obs_flux_ssp wave lum fw ft z / flux_ab0_at_10pc fw ft)
    (hA : ∀ j, p ≤ j → j ≤ q → lo ≤ max (av * k j / 4.05) 0 ∧ max (av * k j / 4.05) 0 ≤ hi) (Om0 w0 wa h : ℝ) :
    calc_obs_mag wave lum fw ft z Om0 w0 wa h + lo ≤ calc_obs_mag wave (screened lum k av) fw ft z Om0 w0 wa h ∧
      calc_obs_mag wave (screened lum k av) fw ft z Om0 w0 wa h ≤ calc_obs_mag wave lum fw ft z Om0 w0 wa h + hi := by
  have := screened_mag (k := k) (av := av) (fl := 0) hw hf hz hb hl hpos (fun j => (C55_bounds (k j) av zero_le_one).2.2 zero_lt_one) fun j h1 h2 => by
    rw [C55_magnitudes]; exact hA j h1 h2
  rw [obs_mag_split, obs_mag_split]
  constructor <;> linarith [this.1, this.2]

/-- C143: the same for rest-frame magnitudes. -/
theorem C143_rest_extinction (hw : StrictMono wave) (hf : GoodFilter fw ft) (hb : InBand wave fw ft 0 p q) (hl : ∀ j, 0 ≤ lum j) (hpos : 0 < calc_rest_flux wave lum fw ft)
    (hA : ∀ j, p ≤ j → j ≤ q → lo ≤ max (av * k j / 4.05) 0 ∧ max (av * k j / 4.05) 0 ≤ hi) :
    calc_rest_mag wave lum fw ft + lo ≤ calc_rest_mag wave (screened lum k av) fw ft ∧ calc_rest_mag wave (screened lum k av) fw ft ≤ calc_rest_mag wave lum fw ft + hi := by
  have e : ∀ l, calc_rest_mag wave l fw ft = calc_obs_mag_no_dimming wave l fw ft 0 := fun l => by
    unfold calc_rest_mag calc_rest_flux calc_obs_mag_no_dimming; rw [obs_eq_rest_at_zero]
  rw [e, e]
  refine screened_mag (k := k) (av := av) (fl := 0) hw hf (by norm_num) hb hl ?_ (fun j => (C55_bounds (k j) av zero_le_one).2.2 zero_lt_one) fun j h1 h2 => by
    rw [C55_magnitudes]; exact hA j h1 h2
  rw [obs_eq_rest_at_zero]; exact hpos

/-- C143: grey dust shifts every magnitude by its extinction. -/
theorem C143_grey (hw : StrictMono wave) (hf : GoodFilter fw ft) (hz : -1 < z) (hb : InBand wave fw ft z p q) (hl : ∀ j, 0 ≤ lum j)
    (hpos : 0 < obs_flux_ssp wave lum fw ft z / flux_ab0_at_10pc fw ft) {A : ℝ} (hA : ∀ j, p ≤ j → j ≤ q → max (av * k j / 4.05) 0 = A) (Om0 w0 wa h : ℝ) :
    calc_obs_mag wave (screened lum k av) fw ft z Om0 w0 wa h = calc_obs_mag wave lum fw ft z Om0 w0 wa h + A := by
  have := C143_band_extinction hw hf hz hb hl hpos (fun j h1 h2 => ⟨(hA j h1 h2).ge, (hA j h1 h2).le⟩) Om0 w0 wa h
  exact le_antisymm this.2 this.1

/-- C143: **dust dims**: no galaxy gets brighter behind dust, more dust dims more, and with unobscured fraction `fl > 0` never by more than `-2.5 log10 fl` magnitudes. -/
theorem C143_dims (hw : StrictMono wave) (hf : GoodFilter fw ft) (hz : -1 < z) (hb : InBand wave fw ft z p q) (hl : ∀ j, 0 ≤ lum j)
    (hpos : 0 < obs_flux_ssp wave lum fw ft z / flux_ab0_at_10pc fw ft) (hk : ∀ j, 0 ≤ k j) (hav : av ≤ av') (hfl0 : 0 ≤ fl) (hfl : fl ≤ 1) (Om0 w0 wa h : ℝ) :
    calc_obs_mag wave lum fw ft z Om0 w0 wa h ≤ calc_obs_mag wave (screened lum k av fl) fw ft z Om0 w0 wa h ∧
    calc_obs_mag wave (screened lum k av fl) fw ft z Om0 w0 wa h ≤ calc_obs_mag wave (screened lum k av' fl) fw ft z Om0 w0 wa h ∧
    (0 < fl → calc_obs_mag wave (screened lum k av' fl) fw ft z Om0 w0 wa h ≤ calc_obs_mag wave lum fw ft z Om0 w0 wa h - 2.5 * Real.logb 10 fl) := by
  have hT : ∀ av j, 0 < frac_transmission_from_k_lambda (k j) av fl := fun av j => by
    rcases hfl.lt_or_eq with h1 | h1
    · exact hfl0.trans_lt ((C55_bounds (k j) av hfl).2.2 h1)
    · exact lt_of_lt_of_le (by rw [h1]; exact one_pos) (C55_bounds (k j) av hfl).1
  obtain ⟨hab, hF⟩ := ab0_pos_of (ab0_nonneg hf) hpos
  have e1 := (screened_mag (k := k) (av := av) (fl := fl) (lo := 0) (hi := ∑ j, -2.5 * Real.logb 10 (frac_transmission_from_k_lambda (k j) av fl)) hw hf hz hb hl hpos (hT av) fun j _ _ => by
    have nn : ∀ j, 0 ≤ -2.5 * Real.logb 10 (frac_transmission_from_k_lambda (k j) av fl) := fun j => by
      have := Real.logb_nonpos (b := 10) (by norm_num) (hT av j).le (C55_bounds (k j) av hfl).2.1
      linarith
    exact ⟨nn j, Finset.single_le_sum (fun i _ => nn i) (Finset.mem_univ j)⟩)
  -- the flux behind the thicker screen is positive
  have pos' : 0 < obs_flux_ssp wave (screened lum k av' fl) fw ft z := by
    have := (screened_flux (a := Finset.univ.inf' Finset.univ_nonempty fun j => frac_transmission_from_k_lambda (k j) av' fl) (b := 1)
      (T := fun j => frac_transmission_from_k_lambda (k j) av' fl) hw hf hz hb hl fun j _ _ => ⟨Finset.inf'_le _ (Finset.mem_univ j), (C55_bounds (k j) av' hfl).2.1⟩).1
    exact lt_of_lt_of_le (mul_pos ((Finset.lt_inf'_iff _).mpr fun j _ => hT av' j) hF) this
  refine ⟨?_, ?_, fun h0 => ?_⟩
  · rw [obs_mag_split, obs_mag_split]; linarith [e1.1]
  · refine (C42_monotone hw.monotone hf hz (fun j => ?_) Om0 w0 wa h).2.1 (div_pos pos' hab)
    exact mul_le_mul_of_nonneg_left (C56_monotone (hk j) hfl hav) (hl j)
  · have e2 := (screened_mag (k := k) (av := av') (fl := fl) (lo := 0) (hi := -2.5 * Real.logb 10 fl) hw hf hz hb hl hpos (hT av') fun j _ _ => by
      have a := Real.logb_nonpos (b := 10) (by norm_num) (hT av' j).le (C55_bounds (k j) av' hfl).2.1
      have b := Real.logb_le_logb_of_le (b := 10) (by norm_num) h0 (C55_bounds (k j) av' hfl).1
      constructor <;> linarith).2
    rw [obs_mag_split, obs_mag_split]; linarith

/-- C143: **dust reddens**: a reddening curve that falls with wavelength (up to `ε`) makes the colour between a bluer and a redder filter redder, up to `av ε / 4.05` magnitudes, at every redshift. -/
theorem C143_reddens {p₀ q₀ : Fin (n + 2)} (hw : StrictMono wave) (hf : GoodFilter fw ft) (hf' : GoodFilter fw' ft') (hz : -1 < z) (hav : 0 ≤ av)
    (hb : InBand wave fw ft z p₀ p) (hb' : InBand wave fw' ft' z p q₀) (hl : ∀ j, 0 ≤ lum j) {ε : ℝ} (hε : 0 ≤ ε) (hk : ∀ i j, i < j → k j ≤ k i + ε)
    (hpos : 0 < obs_flux_ssp wave lum fw ft z / flux_ab0_at_10pc fw ft) (hpos' : 0 < obs_flux_ssp wave lum fw' ft' z / flux_ab0_at_10pc fw' ft') (Om0 w0 wa h : ℝ) :
    let colour := fun l => calc_obs_mag wave l fw ft z Om0 w0 wa h - calc_obs_mag wave l fw' ft' z Om0 w0 wa h
    colour lum - av * ε / 4.05 ≤ colour (screened lum k av) := by
  have mono : ∀ i j, i ≤ j → max (av * k j / 4.05) 0 ≤ max (av * k i / 4.05) 0 + av * ε / 4.05 := fun i j hij => by
    have : 0 ≤ av * ε / 4.05 := by positivity
    rcases hij.lt_or_eq with h1 | h1
    · apply max_le
      · have : av * k j / 4.05 ≤ av * k i / 4.05 + av * ε / 4.05 := by
          rw [← add_div, ← mul_add]
          exact div_le_div_of_nonneg_right (mul_le_mul_of_nonneg_left (hk i j h1) hav) (by norm_num)
        linarith [le_max_left (av * k i / 4.05) 0]
      · linarith [le_max_right (av * k i / 4.05) 0]
    · rw [h1]; linarith
  have top : ∀ j, max (av * k j / 4.05) 0 ≤ ∑ j, max (av * k j / 4.05) 0 := fun j =>
    Finset.single_le_sum (f := fun j => max (av * k j / 4.05) 0) (fun i _ => le_max_right _ _) (Finset.mem_univ j)
  let A : Fin (n + 2) → ℝ := fun j => max (av * k j / 4.05) 0
  have hne : (Finset.univ.filter (p ≤ ·)).Nonempty := ⟨p, by simp⟩
  have a := (C143_band_extinction (k := k) (av := av) (lo := (Finset.univ.filter (p ≤ ·)).sup' hne A - av * ε / 4.05) hw hf hz hb hl hpos (fun j _ h2 => ⟨by
    have : (Finset.univ.filter (p ≤ ·)).sup' hne A ≤ max (av * k j / 4.05) 0 + av * ε / 4.05 :=
      Finset.sup'_le _ _ fun i hi => mono j i (h2.trans (Finset.mem_filter.mp hi).2)
    linarith, top j⟩) Om0 w0 wa h).1
  have b := (C143_band_extinction (k := k) (av := av) (lo := 0) (hi := (Finset.univ.filter (p ≤ ·)).sup' hne A) hw hf' hz hb' hl hpos'
    (fun j h1 _ => ⟨le_max_right _ _, Finset.le_sup' (f := A) (by simpa using h1)⟩) Om0 w0 wa h).2
  intro colour
  simp only [colour]
  linarith

/-- C143: two screens in front of each other act on magnitudes like one with the total `av`. -/
theorem C143_screens_add (hk : ∀ j, 0 ≤ k j) (hav : 0 ≤ av) (hav' : 0 ≤ av') :
    screened (screened lum k av) k av' = screened lum k (av + av') := by
  funext j
  unfold screened
  rw [C56_screens_compose (hk j) hav hav', mul_assoc]
end

/-- C143: **dust may be applied to the SSP spectra or to the galaxy's spectrum**: the result is the same, for one metallicity and for a metallicity history. -/
theorem C143_screen_before_or_after {a k w : ℕ} (t s zt : Fin (n + 2) → ℝ) (gal_lgmet scatter : ℝ) (z : Fin (k + 3) → ℝ)
    (ages : Fin (a + 3) → ℝ) (flux : Fin (k + 3) → Fin (a + 3) → Fin (w + 2) → ℝ) (t_obs sfr_min : ℝ) (curve : Fin (w + 2) → ℝ) (av fl : ℝ) :
    (calc_rest_sed_sfh_table_lognormal_mdf t s gal_lgmet scatter z ages (fun i j => screened (flux i j) curve av fl) t_obs sfr_min).rest_sed =
      screened (calc_rest_sed_sfh_table_lognormal_mdf t s gal_lgmet scatter z ages flux t_obs sfr_min).rest_sed curve av fl ∧
    (calc_rest_sed_sfh_table_met_table t s zt scatter z ages (fun i j => screened (flux i j) curve av fl) t_obs sfr_min).rest_sed =
      screened (calc_rest_sed_sfh_table_met_table t s zt scatter z ages flux t_obs sfr_min).rest_sed curve av fl := by
  constructor <;> funext l
  · unfold screened
    rw [(C25_sed_formula t s zt gal_lgmet scatter z ages _ t_obs sfr_min l).1, (C25_sed_formula t s zt gal_lgmet scatter z ages _ t_obs sfr_min l).1]
    simp only [mul_assoc, Finset.sum_mul]
    rfl
  · unfold screened
    rw [(C25_sed_formula t s zt gal_lgmet scatter z ages _ t_obs sfr_min l).2, (C25_sed_formula t s zt gal_lgmet scatter z ages _ t_obs sfr_min l).2]
    simp only [mul_assoc, Finset.sum_mul]
    rfl

section
variable {wave lum : Fin (n + 2) → ℝ} {fw ft : Fin (m + 1) → ℝ} {fw' ft' : Fin (m' + 1) → ℝ} {z av : ℝ} {p p₀ q₀ : Fin (n + 2)}

/-- C143: with the triweight dust curve colours get redder, exactly; with Calzetti's curve extended by Leitherer's they get redder up to `0.0065 av` magnitudes, the jumps of that curve. -/
theorem C143_package_curves_redden (hw : StrictMono wave) (hw0 : 0 < wave 0) (hf : GoodFilter fw ft) (hf' : GoodFilter fw' ft') (hz : -1 < z) (hav : 0 ≤ av)
    (hb : InBand wave fw ft z p₀ p) (hb' : InBand wave fw' ft' z p q₀) (hl : ∀ j, 0 ≤ lum j)
    (hpos : 0 < obs_flux_ssp wave lum fw ft z / flux_ab0_at_10pc fw ft) (hpos' : 0 < obs_flux_ssp wave lum fw' ft' z / flux_ab0_at_10pc fw' ft') (Om0 w0 wa h : ℝ) :
    let colour := fun l => calc_obs_mag wave l fw ft z Om0 w0 wa h - calc_obs_mag wave l fw' ft' z Om0 w0 wa h
    colour lum ≤ colour (screened lum (fun j => triweight_k_lambda (wave j / 10000)) av) ∧
    colour lum - 0.0065 * av ≤ colour (screened lum (fun j => calzetti00_k_lambda (wave j / 10000)) av) ∧
    colour lum - 0.0065 * av ≤ colour (screened lum (fun j => noll09_k_lambda (wave j / 10000) 0 0) av) := by
  intro colour
  have hwp : ∀ j, 0 < wave j / 10000 := fun j => div_pos (hw0.trans_le (hw.monotone (Fin.zero_le j))) (by norm_num)
  have hlt : ∀ i j, i < j → wave i / 10000 < wave j / 10000 := fun i j hij => div_lt_div_of_pos_right (hw hij) (by norm_num)
  have e : av * 0.026 / 4.05 ≤ 0.0065 * av := by
    rw [show av * 0.026 / 4.05 = av * (0.026 / 4.05) by ring]
    nlinarith [show (0.026 / 4.05 : ℝ) ≤ 0.0065 by norm_num]
  refine ⟨?_, ?_, ?_⟩
  · have := C143_reddens (lum := lum) (k := fun j => triweight_k_lambda (wave j / 10000)) (ε := 0) hw hf hf' hz hav hb hb' hl le_rfl
      (fun i j hij => by rw [add_zero]; exact (C58_triweight (hwp i) (hlt i j hij)).2.le) hpos hpos' Om0 w0 wa h
    simp only at this
    simp only [colour]
    linarith [show av * 0 / 4.05 = 0 by simp]
  · have := C143_reddens (lum := lum) (k := fun j => calzetti00_k_lambda (wave j / 10000)) (ε := 0.026) hw hf hf' hz hav hb hb' hl (by norm_num)
      (fun i j hij => (C58_almost_decreasing (hwp i) (hlt i j hij)).le) hpos hpos' Om0 w0 wa h
    simp only at this
    simp only [colour]
    linarith
  · have hn : ∀ x, noll09_k_lambda x 0 0 = max (l02_below_c00_above x) 0 := fun x => by
      rw [(C57_default_bump x 0 0).1]; simp
    have := C143_reddens (lum := lum) (k := fun j => noll09_k_lambda (wave j / 10000) 0 0) (ε := 0.026) hw hf hf' hz hav hb hb' hl (by norm_num)
      (fun i j hij => by
        rw [hn, hn]
        apply max_le
        · linarith [(C58_base_almost_decreasing (hwp i) (hlt i j hij)).le, le_max_left (l02_below_c00_above (wave i / 10000)) 0]
        · linarith [le_max_right (l02_below_c00_above (wave i / 10000)) 0]) hpos hpos' Om0 w0 wa h
    simp only at this
    simp only [colour]
    linarith
end

end main

/-! ## the theorems applied to the spectrum and filter of `Props/Photometry.lean` and a bluer filter -/
section
attribute [local instance] Dtype.float64

/-- a blue filter -/
noncomputable def caseBlueW : Fin 3 → ℝ := ![2000, 3000, 4000]

theorem caseBlue_good : GoodFilter (m := 2) caseBlueW caseFT :=
  ⟨(Case.sm3 (by norm_num) (by norm_num)).monotone, by intro i; fin_cases i <;> norm_num [caseBlueW], by intro i; fin_cases i <;> norm_num [caseFT]⟩
theorem caseBlue_ab : 0 < flux_ab0_at_10pc (m := 2) caseBlueW caseFT := by
  unfold flux_ab0_at_10pc AB0; simp only; rw [trapz_eq]; simp [Fin.sum_univ_succ, caseBlueW, caseFT]; norm_num
theorem caseFT_one {i : Fin 3} (h : caseFT i ≠ 0) : i = 1 := by
  fin_cases i <;> simp [caseFT] at h ⊢
theorem caseBlue_band : InBand (n := 1) (m := 2) caseWave caseBlueW caseFT 0 0 1 := fun i h => by
  rw [caseFT_one h]; norm_num [caseWave, caseBlueW]
theorem caseRed_band : InBand (n := 1) (m := 2) caseWave caseFW caseFT 0 1 2 := fun i h => by
  rw [caseFT_one h]
  have : caseWave 2 = 30000 := rfl
  rw [this]; norm_num [caseWave, caseFW]
theorem caseLum_nonneg (j : Fin 3) : 0 ≤ caseLum j := by fin_cases j <;> norm_num [caseLum]
theorem caseRed_pos : 0 < obs_flux_ssp (n := 1) (m := 2) caseWave caseLum caseFW caseFT 0 / flux_ab0_at_10pc caseFW caseFT := by
  rw [obs_eq_rest_at_zero]; exact case_flux
theorem caseBlue_pos : 0 < obs_flux_ssp (n := 1) (m := 2) caseWave caseLum caseBlueW caseFT 0 / flux_ab0_at_10pc caseBlueW caseFT := by
  have h := (C42_monotone (n := 1) (m := 2) caseWave_mono.monotone caseBlue_good (z := 0) (by norm_num)
    (f := fun _ => 1 * 1.13492e-13) (g := caseLum) (by intro i; fin_cases i <;> norm_num [caseLum]) 0.3 (-1) 0 0.7).1
  rw [(C40_ab_zero_point_rest (n := 1) (m := 2) caseWave_mono.monotone caseBlueW caseFT (c := 1) caseBlue_ab.ne'
    (by intro i; fin_cases i <;> norm_num [caseWave, caseBlueW, Fin.last])).1] at h
  rw [obs_eq_rest_at_zero]
  exact one_pos.trans_le h

/-- reddening curve values 3, 2, 1 at the three wavelengths and `av = 0.81`: the blue band dims by 0.4 to 0.6 magnitudes -/
example := C143_band_extinction (k := ![3, 2, 1]) (av := 0.81) (lo := 0.4) (hi := 0.6) caseWave_mono caseBlue_good (by norm_num) caseBlue_band caseLum_nonneg caseBlue_pos
  (fun j _ h2 => by
    have : j = 0 ∨ j = 1 := by fin_cases j; exacts [Or.inl rfl, Or.inr rfl, absurd h2 (by decide)]
    rcases this with rfl | rfl <;> norm_num) 0.3 (-1) 0 0.7
example := C143_rest_extinction (k := ![3, 2, 1]) (av := 0.81) (lo := 0.4) (hi := 0.6) caseWave_mono caseBlue_good caseBlue_band caseLum_nonneg
  (by have := caseBlue_pos; rwa [obs_eq_rest_at_zero] at this)
  (fun j _ h2 => by
    have : j = 0 ∨ j = 1 := by fin_cases j; exacts [Or.inl rfl, Or.inr rfl, absurd h2 (by decide)]
    rcases this with rfl | rfl <;> norm_num)
example := C143_grey (k := fun _ => 4.05) (av := 0.5) (A := 0.5) caseWave_mono caseBlue_good (by norm_num) caseBlue_band caseLum_nonneg caseBlue_pos
  (fun j _ _ => by norm_num) 0.3 (-1) 0 0.7
example := C143_dims (k := fun _ => 4.05) (av := 0.5) (av' := 0.7) (fl := 0.2) caseWave_mono caseBlue_good (by norm_num) caseBlue_band caseLum_nonneg caseBlue_pos
  (fun _ => by norm_num) (by norm_num) (by norm_num) (by norm_num) 0.3 (-1) 0 0.7
example := C143_reddens (k := fun j => 3 - j) (av := 0.5) (ε := 0) caseWave_mono caseBlue_good case_good (by norm_num) (by norm_num) caseBlue_band caseRed_band caseLum_nonneg le_rfl
  (fun i j h => by have : (i : ℝ) ≤ j := by exact_mod_cast h.le
                   linarith) caseBlue_pos caseRed_pos 0.3 (-1) 0 0.7
example := C143_screens_add (lum := caseLum) (k := fun j => (j : ℝ)) (av := 0.5) (av' := 0.25) (fun j => by positivity) (by norm_num) (by norm_num)
example := C143_package_curves_redden (av := 0.5) caseWave_mono (by norm_num [caseWave]) caseBlue_good case_good (by norm_num) (by norm_num) caseBlue_band caseRed_band caseLum_nonneg
  caseBlue_pos caseRed_pos 0.3 (-1) 0 0.7
end

end Dsps.Props
