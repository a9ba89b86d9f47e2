import Verif.Props.DustMag
import Verif.Props.Superpose
import Verif.Props.RefinePhot

/-! C149: photometry of a galaxy from precomputed SSP magnitudes (`/repo/dsps/photometry/photpop.py`), and the approximation of
dust by the extinction at the effective wavelength (`/repo/dsps/dust/utils.py`). -/
namespace Dsps.Props
open Jnp Dsps.Utils Dsps.Photometry Dsps.FlatWcdm Dsps.Dust Dsps.Lemmas Dsps.SspWeights Spec
open scoped BigOperators

section main
variable {n m nm na nf nz : ℕ} [Dtype]

/-- the magnitude of a population of mass `M` whose single-age, single-metallicity parts of unit mass have magnitudes `mag` and mass
shares `W`: fluxes add, and a flux is `10^(-0.4 mag)` -/
noncomputable def mixtureMag (M : ℝ) (W mag : Fin nm → Fin na → ℝ) : ℝ :=
  -2.5 * Real.logb 10 (M * ∑ i, ∑ j, W i j * (10 : ℝ) ^ (-0.4 * mag i j))

/-- the spectrum of that population -/
noncomputable def mixtureSed (M : ℝ) (W : Fin nm → Fin na → ℝ) (F : Fin nm → Fin na → Fin (n + 2) → ℝ) : Fin (n + 2) → ℝ :=
  fun l => M * ∑ i, ∑ j, W i j * F i j l

lemma obs_flux_mixture (wave : Fin (n + 2) → ℝ) (M : ℝ) (W : Fin nm → Fin na → ℝ) (F : Fin nm → Fin na → Fin (n + 2) → ℝ)
    (fw ft : Fin (m + 1) → ℝ) (z : ℝ) :
    obs_flux_ssp wave (mixtureSed M W F) fw ft z = M * ∑ i, ∑ j, W i j * obs_flux_ssp wave (F i j) fw ft z := by
  unfold mixtureSed
  rw [obs_flux_smul]
  congr 1
  have h := obs_flux_sum (Finset.univ ×ˢ Finset.univ) (fun p : Fin nm × Fin na => W p.1 p.2) wave (fun p => F p.1 p.2) fw ft z
  simp only [Finset.sum_product] at h
  exact h

section
variable {wave : Fin (n + 2) → ℝ} {M : ℝ} {W : Fin nm → Fin na → ℝ} {F : Fin nm → Fin na → Fin (n + 2) → ℝ}
  {fw ft : Fin (m + 1) → ℝ} {z : ℝ}

omit [Dtype] in
lemma flux_of_mag {x D : ℝ} (hx : 0 < x) : (10 : ℝ) ^ (-0.4 * (-2.5 * Real.logb 10 x + D)) = x * 10 ^ (-0.4 * D) := by
  rw [show -0.4 * (-2.5 * Real.logb 10 x + D) = Real.logb 10 x + -0.4 * D by ring, Real.rpow_add (by norm_num),
    Real.rpow_logb (by norm_num) (by norm_num) hx]

omit [Dtype] in
lemma mean_pos (hW : IsProbMatrix W) {x : Fin nm → Fin na → ℝ} (hx : ∀ i j, 0 < x i j) : 0 < ∑ i, ∑ j, W i j * x i j := by
  have h0 : ∀ i j, 0 ≤ W i j * x i j := fun i j => mul_nonneg (hW.1 i j) (hx i j).le
  by_contra hc
  have hs : ∑ i, ∑ j, W i j * x i j = 0 :=
    le_antisymm (not_lt.1 hc) (Finset.sum_nonneg fun i _ => Finset.sum_nonneg fun j _ => h0 i j)
  have hz : ∀ i j, W i j = 0 := by
    intro i j
    have h1 := (Finset.sum_eq_zero_iff_of_nonneg fun i _ => Finset.sum_nonneg fun j _ => h0 i j).1 hs i (Finset.mem_univ _)
    have h2 := (Finset.sum_eq_zero_iff_of_nonneg fun j _ => h0 i j).1 h1 j (Finset.mem_univ _)
    exact (mul_eq_zero.1 h2).resolve_right (hx i j).ne'
  have := hW.2
  simp [hz] at this

/-- magnitudes with an arbitrary common offset `D` -/
lemma mixture_offset (hM : 0 < M) (hW : IsProbMatrix W) (D : ℝ)
    (hpos : ∀ i j, 0 < obs_flux_ssp wave (F i j) fw ft z / flux_ab0_at_10pc fw ft) :
    -2.5 * Real.logb 10 (obs_flux_ssp wave (mixtureSed M W F) fw ft z / flux_ab0_at_10pc fw ft) + D =
      mixtureMag M W fun i j => -2.5 * Real.logb 10 (obs_flux_ssp wave (F i j) fw ft z / flux_ab0_at_10pc fw ft) + D := by
  have hm := mean_pos hW hpos
  have e1 : obs_flux_ssp wave (mixtureSed M W F) fw ft z / flux_ab0_at_10pc fw ft =
      M * ∑ i, ∑ j, W i j * (obs_flux_ssp wave (F i j) fw ft z / flux_ab0_at_10pc fw ft) := by
    rw [obs_flux_mixture, mul_div_assoc, Finset.sum_div]
    congr 1
    refine Finset.sum_congr rfl fun i _ => ?_
    rw [Finset.sum_div]
    exact Finset.sum_congr rfl fun j _ => mul_div_assoc ..
  have e2 : (M * ∑ i, ∑ j, W i j * (10 : ℝ) ^ (-0.4 * (-2.5 * Real.logb 10 (obs_flux_ssp wave (F i j) fw ft z / flux_ab0_at_10pc fw ft) + D))) =
      M * (∑ i, ∑ j, W i j * (obs_flux_ssp wave (F i j) fw ft z / flux_ab0_at_10pc fw ft)) * 10 ^ (-0.4 * D) := by
    rw [mul_assoc, Finset.sum_mul]
    congr 1
    refine Finset.sum_congr rfl fun i _ => ?_
    rw [Finset.sum_mul]
    refine Finset.sum_congr rfl fun j _ => ?_
    rw [flux_of_mag (hpos i j), mul_assoc]
  unfold mixtureMag
  rw [e1, e2, Real.logb_mul (mul_pos hM hm).ne' (Real.rpow_pos_of_pos (by norm_num) _).ne', Real.logb_rpow (by norm_num) (by norm_num)]
  ring

/-- C149: **the magnitudes of a population follow from the magnitudes of its parts**: the observed, k-corrected and rest-frame
magnitude of the population's spectrum equals the magnitude of the sum of the fluxes in the precomputed table. -/
theorem C149_mixture (hM : 0 < M) (hW : IsProbMatrix W) {fws fts : Fin nf → Fin (m + 1) → ℝ} {zs : Fin nz → ℝ} (Om0 w0 wa h : ℝ) (k : Fin nf) :
    (∀ iz, (∀ i j, 0 < obs_flux_ssp wave (F i j) (fws k) (fts k) (zs iz) / flux_ab0_at_10pc (fws k) (fts k)) →
      calc_obs_mag wave (mixtureSed M W F) (fws k) (fts k) (zs iz) Om0 w0 wa h =
        mixtureMag M W fun i j => precompute_ssp_obsmags_on_z_table wave F fws fts zs Om0 w0 wa h iz i j k) ∧
    ((∀ i j, 0 < obs_flux_ssp wave (F i j) (fws k) (fts k) z / flux_ab0_at_10pc (fws k) (fts k)) →
      calc_obs_mag_no_dimming wave (mixtureSed M W F) (fws k) (fts k) z =
        mixtureMag M W fun i j => precompute_ssp_restmags_z_kcorrect wave F fws fts z i j k) ∧
    ((∀ i j, 0 < calc_rest_flux wave (F i j) (fws k) (fts k)) →
      calc_rest_mag wave (mixtureSed M W F) (fws k) (fts k) =
        mixtureMag M W fun i j => precompute_ssp_restmags wave F fws fts i j k) := by
  refine ⟨fun iz hpos => mixture_offset hM hW (cosmological_dimming (zs iz) Om0 w0 wa h) hpos, fun hpos => ?_, fun hpos => ?_⟩
  · have := mixture_offset hM hW 0 hpos
    simp only [add_zero] at this
    exact this
  · have hpos' : ∀ i j, 0 < obs_flux_ssp wave (F i j) (fws k) (fts k) 0 / flux_ab0_at_10pc (fws k) (fts k) := fun i j => by
      rw [obs_eq_rest_at_zero]; exact hpos i j
    have := mixture_offset hM hW 0 hpos'
    simp only [add_zero, obs_eq_rest_at_zero] at this
    exact this

omit [Dtype] in
/-- brighter parts make a brighter population -/
lemma mixtureMag_mono (hM : 0 < M) (hW : IsProbMatrix W) {A B : Fin nm → Fin na → ℝ} {c : ℝ} (h : ∀ i j, W i j ≠ 0 → A i j ≤ B i j + c) :
    mixtureMag M W A ≤ mixtureMag M W B + c := by
  have hp : ∀ x : ℝ, (0:ℝ) < 10 ^ x := fun x => Real.rpow_pos_of_pos (by norm_num) _
  have hA := mean_pos hW (x := fun i j => (10:ℝ) ^ (-0.4 * A i j)) fun i j => hp _
  have hB := mean_pos hW (x := fun i j => (10:ℝ) ^ (-0.4 * B i j)) fun i j => hp _
  have l1 : (∑ i, ∑ j, W i j * (10:ℝ) ^ (-0.4 * B i j)) * 10 ^ (-0.4 * c) ≤ ∑ i, ∑ j, W i j * (10:ℝ) ^ (-0.4 * A i j) := by
    simp only [Finset.sum_mul]
    refine Finset.sum_le_sum fun i _ => Finset.sum_le_sum fun j _ => ?_
    by_cases h0 : W i j = 0
    · simp [h0]
    · rw [mul_assoc, ← Real.rpow_add (by norm_num)]
      exact mul_le_mul_of_nonneg_left (Real.rpow_le_rpow_of_exponent_le (by norm_num) (by linarith [h i j h0])) (hW.1 i j)
  have c1 := Real.logb_le_logb_of_le (b := 10) (by norm_num) (mul_pos hB (hp _)) l1
  rw [Real.logb_mul hB.ne' (hp _).ne', Real.logb_rpow (by norm_num) (by norm_num)] at c1
  unfold mixtureMag
  rw [Real.logb_mul hM.ne' hA.ne', Real.logb_mul hM.ne' hB.ne']
  linarith

omit [Dtype] in
lemma mixtureMag_const (hM : 0 < M) (hW : IsProbMatrix W) (c : ℝ) : mixtureMag M W (fun _ _ => c) = c - 2.5 * Real.logb 10 M := by
  unfold mixtureMag
  simp only [← Finset.sum_mul, hW.2, one_mul]
  rw [Real.logb_mul hM.ne' (Real.rpow_pos_of_pos (by norm_num) _).ne', Real.logb_rpow (by norm_num) (by norm_num)]
  ring

lemma obs_mag_mixture (hM : 0 < M) (hW : IsProbMatrix W) (Om0 w0 wa h : ℝ)
    (hpos : ∀ i j, 0 < obs_flux_ssp wave (F i j) fw ft z / flux_ab0_at_10pc fw ft) :
    calc_obs_mag wave (mixtureSed M W F) fw ft z Om0 w0 wa h = mixtureMag M W fun i j => calc_obs_mag wave (F i j) fw ft z Om0 w0 wa h :=
  mixture_offset hM hW (cosmological_dimming z Om0 w0 wa h) hpos

/-- C149: the magnitude of a population per unit mass lies between those of its brightest and its faintest part. -/
theorem C149_between (hM : 0 < M) (hW : IsProbMatrix W) (Om0 w0 wa h : ℝ) {lo hi : ℝ}
    (hpos : ∀ i j, 0 < obs_flux_ssp wave (F i j) fw ft z / flux_ab0_at_10pc fw ft)
    (hb : ∀ i j, W i j ≠ 0 → lo ≤ calc_obs_mag wave (F i j) fw ft z Om0 w0 wa h ∧ calc_obs_mag wave (F i j) fw ft z Om0 w0 wa h ≤ hi) :
    lo ≤ calc_obs_mag wave (mixtureSed M W F) fw ft z Om0 w0 wa h + 2.5 * Real.logb 10 M ∧
      calc_obs_mag wave (mixtureSed M W F) fw ft z Om0 w0 wa h + 2.5 * Real.logb 10 M ≤ hi := by
  rw [obs_mag_mixture hM hW Om0 w0 wa h hpos]
  have h1 := mixtureMag_mono (A := fun _ _ => lo) (B := fun i j => calc_obs_mag wave (F i j) fw ft z Om0 w0 wa h) (c := 0) hM hW fun i j h0 => by
    linarith [(hb i j h0).1]
  have h2 := mixtureMag_mono (B := fun _ _ => hi) (A := fun i j => calc_obs_mag wave (F i j) fw ft z Om0 w0 wa h) (c := 0) hM hW fun i j h0 => by
    linarith [(hb i j h0).2]
  rw [mixtureMag_const hM hW] at h1 h2
  constructor <;> linarith

/-- C149: **the colour of a population lies between the bluest and the reddest colour of its parts**, whatever their masses. -/
theorem C149_colour_between {m' : ℕ} {fw' ft' : Fin (m' + 1) → ℝ} {z' : ℝ} (hM : 0 < M) (hW : IsProbMatrix W) (Om0 w0 wa h : ℝ) {lo hi : ℝ}
    (hpos : ∀ i j, 0 < obs_flux_ssp wave (F i j) fw ft z / flux_ab0_at_10pc fw ft)
    (hpos' : ∀ i j, 0 < obs_flux_ssp wave (F i j) fw' ft' z' / flux_ab0_at_10pc fw' ft')
    (hb : ∀ i j, W i j ≠ 0 →
      lo ≤ calc_obs_mag wave (F i j) fw ft z Om0 w0 wa h - calc_obs_mag wave (F i j) fw' ft' z' Om0 w0 wa h ∧
      calc_obs_mag wave (F i j) fw ft z Om0 w0 wa h - calc_obs_mag wave (F i j) fw' ft' z' Om0 w0 wa h ≤ hi) :
    lo ≤ calc_obs_mag wave (mixtureSed M W F) fw ft z Om0 w0 wa h - calc_obs_mag wave (mixtureSed M W F) fw' ft' z' Om0 w0 wa h ∧
      calc_obs_mag wave (mixtureSed M W F) fw ft z Om0 w0 wa h - calc_obs_mag wave (mixtureSed M W F) fw' ft' z' Om0 w0 wa h ≤ hi := by
  rw [obs_mag_mixture hM hW Om0 w0 wa h hpos, obs_mag_mixture hM hW Om0 w0 wa h hpos']
  constructor
  · have := mixtureMag_mono (A := fun i j => calc_obs_mag wave (F i j) fw' ft' z' Om0 w0 wa h)
      (B := fun i j => calc_obs_mag wave (F i j) fw ft z Om0 w0 wa h) (c := -lo) hM hW fun i j h0 => by linarith [(hb i j h0).1]
    linarith
  · have := mixtureMag_mono (A := fun i j => calc_obs_mag wave (F i j) fw ft z Om0 w0 wa h)
      (B := fun i j => calc_obs_mag wave (F i j) fw' ft' z' Om0 w0 wa h) (c := hi) hM hW fun i j h0 => by linarith [(hb i j h0).2]
    linarith

end

/-! ### The galaxies of the package -/

section
variable {N k a : ℕ} {t s zt : Fin (N + 2) → ℝ} {gal_lgmet scatter : ℝ} {zm : Fin (k + 3) → ℝ} {ages : Fin (a + 3) → ℝ} {t_obs sfr_min : ℝ}
  {flux : Fin (k + 3) → Fin (a + 3) → Fin (n + 2) → ℝ} {wave : Fin (n + 2) → ℝ}

lemma sed_mixture : (calc_rest_sed_sfh_table_lognormal_mdf t s gal_lgmet scatter zm ages flux t_obs sfr_min).rest_sed =
      mixtureSed (massFormed t s sfr_min t_obs) (calc_rest_sed_sfh_table_lognormal_mdf t s gal_lgmet scatter zm ages flux t_obs sfr_min).weights flux ∧
    (calc_rest_sed_sfh_table_met_table t s zt scatter zm ages flux t_obs sfr_min).rest_sed =
      mixtureSed (massFormed t s sfr_min t_obs) (calc_rest_sed_sfh_table_met_table t s zt scatter zm ages flux t_obs sfr_min).weights flux :=
  ⟨funext fun l => (C25_sed_formula t s zt gal_lgmet scatter zm ages flux t_obs sfr_min l).1,
   funext fun l => (C25_sed_formula t s zt gal_lgmet scatter zm ages flux t_obs sfr_min l).2⟩

lemma sed_prob (H : SedInputs t ages zm t_obs scatter) :
    IsProbMatrix (calc_rest_sed_sfh_table_lognormal_mdf t s gal_lgmet scatter zm ages flux t_obs sfr_min).weights ∧
    IsProbMatrix (calc_rest_sed_sfh_table_met_table t s zt scatter zm ages flux t_obs sfr_min).weights :=
  ⟨C23_joint_weights_lognormal_inputs t s gal_lgmet scatter zm ages t_obs H.times H.start H.resolved H.ages H.young H.old H.width H.mets H.low H.high,
   (C24_joint_weights_met_table t s zt scatter H.width zm ages t_obs
    (by have := (lgmet_edges_mono zm H.mets H.low H.high).monotone; norm_num [Constants.LGMET_LO, Constants.LGMET_HI] at this; exact this)
    (C17_age_weights_prob_mild_partial t s ages t_obs H.times H.start H.resolved H.ages H.young H.old)).2.1⟩

/-- C149: **photometry without spectra**: the magnitudes of a galaxy — those of its spectrum as computed by either SED function — equal
the magnitudes of the mass-weighted sum of the fluxes in the precomputed table, for every filter and redshift of the table. -/
theorem C149_galaxy (H : SedInputs t ages zm t_obs scatter) {fws fts : Fin nf → Fin (m + 1) → ℝ} {zs : Fin nz → ℝ} (Om0 w0 wa h : ℝ) (iz : Fin nz) (f : Fin nf)
    (hpos : ∀ i j, 0 < obs_flux_ssp wave (flux i j) (fws f) (fts f) (zs iz) / flux_ab0_at_10pc (fws f) (fts f)) :
    let T := precompute_ssp_obsmags_on_z_table wave flux fws fts zs Om0 w0 wa h
    let G := calc_rest_sed_sfh_table_lognormal_mdf t s gal_lgmet scatter zm ages flux t_obs sfr_min
    let G' := calc_rest_sed_sfh_table_met_table t s zt scatter zm ages flux t_obs sfr_min
    calc_obs_mag wave G.rest_sed (fws f) (fts f) (zs iz) Om0 w0 wa h =
      mixtureMag (massFormed t s sfr_min t_obs) G.weights (fun i j => T iz i j f) ∧
    calc_obs_mag wave G'.rest_sed (fws f) (fts f) (zs iz) Om0 w0 wa h =
      mixtureMag (massFormed t s sfr_min t_obs) G'.weights (fun i j => T iz i j f) := by
  intro T G G'
  have hp := sed_prob (s := s) (zt := zt) (gal_lgmet := gal_lgmet) (sfr_min := sfr_min) (flux := flux) H
  have hm := sed_mixture (t := t) (s := s) (zt := zt) (gal_lgmet := gal_lgmet) (scatter := scatter) (zm := zm) (ages := ages) (t_obs := t_obs)
    (sfr_min := sfr_min) (flux := flux)
  refine ⟨?_, ?_⟩
  · show calc_obs_mag wave G.rest_sed _ _ _ _ _ _ _ = _
    rw [hm.1]
    exact (C149_mixture (z := 0) (massFormed_pos _) hp.1 Om0 w0 wa h f).1 iz hpos
  · show calc_obs_mag wave G'.rest_sed _ _ _ _ _ _ _ = _
    rw [hm.2]
    exact (C149_mixture (z := 0) (massFormed_pos _) hp.2 Om0 w0 wa h f).1 iz hpos

/-- C149: the rest-frame and k-corrected tables likewise. -/
theorem C149_galaxy_rest (H : SedInputs t ages zm t_obs scatter) {fws fts : Fin nf → Fin (m + 1) → ℝ} (f : Fin nf) (z : ℝ)
    (hpos : ∀ i j, 0 < calc_rest_flux wave (flux i j) (fws f) (fts f))
    (hposz : ∀ i j, 0 < obs_flux_ssp wave (flux i j) (fws f) (fts f) z / flux_ab0_at_10pc (fws f) (fts f)) :
    let G := calc_rest_sed_sfh_table_lognormal_mdf t s gal_lgmet scatter zm ages flux t_obs sfr_min
    let G' := calc_rest_sed_sfh_table_met_table t s zt scatter zm ages flux t_obs sfr_min
    let T := fun i j => precompute_ssp_restmags wave flux fws fts i j f
    let Tz := fun i j => precompute_ssp_restmags_z_kcorrect wave flux fws fts z i j f
    (calc_rest_mag wave G.rest_sed (fws f) (fts f) = mixtureMag (massFormed t s sfr_min t_obs) G.weights T ∧
      calc_rest_mag wave G'.rest_sed (fws f) (fts f) = mixtureMag (massFormed t s sfr_min t_obs) G'.weights T) ∧
    calc_obs_mag_no_dimming wave G.rest_sed (fws f) (fts f) z = mixtureMag (massFormed t s sfr_min t_obs) G.weights Tz ∧
      calc_obs_mag_no_dimming wave G'.rest_sed (fws f) (fts f) z = mixtureMag (massFormed t s sfr_min t_obs) G'.weights Tz := by
  intro G G' T Tz
  have hp := sed_prob (s := s) (zt := zt) (gal_lgmet := gal_lgmet) (sfr_min := sfr_min) (flux := flux) H
  have hm := sed_mixture (t := t) (s := s) (zt := zt) (gal_lgmet := gal_lgmet) (scatter := scatter) (zm := zm) (ages := ages) (t_obs := t_obs)
    (sfr_min := sfr_min) (flux := flux)
  have e := C149_mixture (nz := 0) (zs := fun i => i.elim0) (wave := wave) (F := flux) (fws := fws) (fts := fts) (z := z)
    (massFormed_pos (t := t) (s := s) (sfr_min := sfr_min) t_obs) hp.1 0 0 0 0 f
  have e' := C149_mixture (nz := 0) (zs := fun i => i.elim0) (wave := wave) (F := flux) (fws := fws) (fts := fts) (z := z)
    (massFormed_pos (t := t) (s := s) (sfr_min := sfr_min) t_obs) hp.2 0 0 0 0 f
  rw [← hm.1] at e
  rw [← hm.2] at e'
  exact ⟨⟨e.2.2 hpos, e'.2.2 hpos⟩, e.2.1 hposz, e'.2.1 hposz⟩

end

/-! ### Dust at the effective wavelength -/

section
variable {wave lum : Fin (n + 2) → ℝ} {fw ft : Fin (m + 1) → ℝ} {z av lo hi : ℝ} {p q : Fin (n + 2)} {curve : ℝ → ℝ}

omit [Dtype] in
/-- C149: the effective wavelength lies where the filter transmits. -/
theorem C149_effective_in_band (hf : GoodFilter fw ft) (hN : 0 < trapz fw ft) (hz : -1 < z) (hb : InBand wave fw ft z p q) :
    wave p ≤ get_filter_effective_wavelength fw ft z ∧ get_filter_effective_wavelength fw ft z ≤ wave q := by
  have hu : 0 < 1 + z := by linarith
  unfold get_filter_effective_wavelength
  simp only
  constructor
  · rw [le_div_iff₀ hu, le_div_iff₀ hN, ← trapz_smul]
    apply trapz_mono hf.1
    intro i
    by_cases h0 : ft i = 0
    · simp [h0]
    · rw [mul_comm]; exact mul_le_mul_of_nonneg_left (hb i h0).1 (hf.2.2 i)
  · rw [div_le_iff₀ hu, div_le_iff₀ hN, ← trapz_smul]
    apply trapz_mono hf.1
    intro i
    by_cases h0 : ft i = 0
    · simp [h0]
    · rw [mul_comm (ft i)]; exact mul_le_mul_of_nonneg_right (hb i h0).2.le (hf.2.2 i)

/-- C149: **how good is the attenuation at the effective wavelength?**  Replacing the attenuated spectrum by a constant extinction, that of the
reddening curve at the filter's effective wavelength (blue-shifted by `1 + z`), is wrong by at most the variation of the extinction within the band. -/
theorem C149_effective_extinction (hw : StrictMono wave) (hf : GoodFilter fw ft) (hN : 0 < trapz fw ft) (hz : -1 < z) (hb : InBand wave fw ft z p q)
    (hl : ∀ j, 0 ≤ lum j) (hpos : 0 < obs_flux_ssp wave lum fw ft z / flux_ab0_at_10pc fw ft)
    (hA : ∀ x, wave p ≤ x → x ≤ wave q → lo ≤ max (av * curve x / 4.05) 0 ∧ max (av * curve x / 4.05) 0 ≤ hi) (Om0 w0 wa h : ℝ) :
    |calc_obs_mag wave (screened lum (fun j => curve (wave j)) av) fw ft z Om0 w0 wa h -
      (calc_obs_mag wave lum fw ft z Om0 w0 wa h + max (av * curve (get_filter_effective_wavelength fw ft z) / 4.05) 0)| ≤ hi - lo := by
  have he := C149_effective_in_band hf hN hz hb
  have h1 := hA _ he.1 he.2
  have h2 := C143_band_extinction (k := fun j => curve (wave j)) (av := av) (lo := lo) (hi := hi) hw hf hz hb hl hpos
    (fun j h1 h2 => hA _ (hw.monotone h1) (hw.monotone h2)) Om0 w0 wa h
  rw [abs_le]
  constructor <;> linarith [h1.1, h1.2, h2.1, h2.2]

/-- C149: for a reddening curve that falls with wavelength the error is at most the difference of the extinction at the two ends of the band. -/
theorem C149_effective_falling (hw : StrictMono wave) (hf : GoodFilter fw ft) (hN : 0 < trapz fw ft) (hz : -1 < z) (hb : InBand wave fw ft z p q)
    (hl : ∀ j, 0 ≤ lum j) (hpos : 0 < obs_flux_ssp wave lum fw ft z / flux_ab0_at_10pc fw ft) (hav : 0 ≤ av)
    (hc : AntitoneOn curve (Set.Icc (wave p) (wave q))) (h0 : 0 ≤ curve (wave q)) (Om0 w0 wa h : ℝ) :
    |calc_obs_mag wave (screened lum (fun j => curve (wave j)) av) fw ft z Om0 w0 wa h -
      (calc_obs_mag wave lum fw ft z Om0 w0 wa h + max (av * curve (get_filter_effective_wavelength fw ft z) / 4.05) 0)| ≤
        av * (curve (wave p) - curve (wave q)) / 4.05 := by
  have := C149_effective_extinction (curve := curve) (av := av) (lo := av * curve (wave q) / 4.05) (hi := av * curve (wave p) / 4.05) hw hf hN hz hb hl hpos
    (fun x h1 h2 => by
      have hpq := h1.trans h2
      have c1 := hc ⟨le_rfl, hpq⟩ ⟨h1, h2⟩ h1
      have c2 := hc ⟨h1, h2⟩ ⟨hpq, le_rfl⟩ h2
      have c3 : 0 ≤ curve x := h0.trans c2
      rw [max_eq_left (by positivity)]
      constructor <;> gcongr) Om0 w0 wa h
  refine this.trans (le_of_eq ?_)
  ring

end

/-- C149: **a dusty galaxy from the table**: the magnitude of a galaxy seen through a screen of dust is, up to the change of the extinction across the
band, the magnitude from the precomputed table plus the extinction at the effective wavelength. -/
theorem C149_dusty_galaxy {N k a : ℕ} {t s zt : Fin (N + 2) → ℝ} {gal_lgmet scatter : ℝ} {zm : Fin (k + 3) → ℝ} {ages : Fin (a + 3) → ℝ} {t_obs sfr_min : ℝ}
    {flux : Fin (k + 3) → Fin (a + 3) → Fin (n + 2) → ℝ} {wave : Fin (n + 2) → ℝ} {p q : Fin (n + 2)} {av : ℝ} {curve : ℝ → ℝ}
    (H : SedInputs t ages zm t_obs scatter) {fws fts : Fin nf → Fin (m + 1) → ℝ} {zs : Fin nz → ℝ} (Om0 w0 wa h : ℝ) (iz : Fin nz) (f : Fin nf)
    (hpos : ∀ i j, 0 < obs_flux_ssp wave (flux i j) (fws f) (fts f) (zs iz) / flux_ab0_at_10pc (fws f) (fts f))
    (hl : ∀ i j l, 0 ≤ flux i j l)
    (hw : StrictMono wave) (hf : GoodFilter (fws f) (fts f)) (hN : 0 < trapz (fws f) (fts f)) (hz : -1 < zs iz)
    (hb : InBand wave (fws f) (fts f) (zs iz) p q) (hav : 0 ≤ av)
    (hc : AntitoneOn curve (Set.Icc (wave p) (wave q))) (h0 : 0 ≤ curve (wave q)) :
    let T := precompute_ssp_obsmags_on_z_table wave flux fws fts zs Om0 w0 wa h
    let G := calc_rest_sed_sfh_table_lognormal_mdf t s gal_lgmet scatter zm ages flux t_obs sfr_min
    let G' := calc_rest_sed_sfh_table_met_table t s zt scatter zm ages flux t_obs sfr_min
    let A := max (av * curve (get_filter_effective_wavelength (fws f) (fts f) (zs iz)) / 4.05) 0
    |calc_obs_mag wave (screened G.rest_sed (fun j => curve (wave j)) av) (fws f) (fts f) (zs iz) Om0 w0 wa h -
      (mixtureMag (massFormed t s sfr_min t_obs) G.weights (fun i j => T iz i j f) + A)| ≤ av * (curve (wave p) - curve (wave q)) / 4.05 ∧
    |calc_obs_mag wave (screened G'.rest_sed (fun j => curve (wave j)) av) (fws f) (fts f) (zs iz) Om0 w0 wa h -
      (mixtureMag (massFormed t s sfr_min t_obs) G'.weights (fun i j => T iz i j f) + A)| ≤ av * (curve (wave p) - curve (wave q)) / 4.05 := by
  intro T G G' A
  have hp := sed_prob (s := s) (zt := zt) (gal_lgmet := gal_lgmet) (sfr_min := sfr_min) (flux := flux) H
  have hm := sed_mixture (t := t) (s := s) (zt := zt) (gal_lgmet := gal_lgmet) (scatter := scatter) (zm := zm) (ages := ages) (t_obs := t_obs)
    (sfr_min := sfr_min) (flux := flux)
  have hM := massFormed_pos (t := t) (s := s) (sfr_min := sfr_min) t_obs
  have e := C149_galaxy (s := s) (zt := zt) (gal_lgmet := gal_lgmet) (sfr_min := sfr_min) H Om0 w0 wa h iz f hpos
  have nn : ∀ {W : Fin (k + 3) → Fin (a + 3) → ℝ}, IsProbMatrix W → ∀ l, 0 ≤ mixtureSed (massFormed t s sfr_min t_obs) W flux l := fun hW l =>
    mul_nonneg hM.le (Finset.sum_nonneg fun i _ => Finset.sum_nonneg fun j _ => mul_nonneg (hW.1 i j) (hl i j l))
  have pp : ∀ {W : Fin (k + 3) → Fin (a + 3) → ℝ}, IsProbMatrix W →
      0 < obs_flux_ssp wave (mixtureSed (massFormed t s sfr_min t_obs) W flux) (fws f) (fts f) (zs iz) / flux_ab0_at_10pc (fws f) (fts f) := fun hW => by
    rw [obs_flux_mixture, mul_div_assoc, Finset.sum_div]
    refine mul_pos hM ?_
    have := mean_pos hW hpos
    simp only [mul_div_assoc, Finset.sum_div]
    exact this
  refine ⟨?_, ?_⟩
  · rw [← e.1]
    refine C149_effective_falling hw hf hN hz hb (fun l => ?_) ?_ hav hc h0 Om0 w0 wa h
    · rw [hm.1]; exact nn hp.1 l
    · rw [hm.1]; exact pp hp.1
  · rw [← e.2]
    refine C149_effective_falling hw hf hN hz hb (fun l => ?_) ?_ hav hc h0 Om0 w0 wa h
    · rw [hm.2]; exact nn hp.2 l
    · rw [hm.2]; exact pp hp.2

end main

/-! ### The hypotheses can be met -/

section
attribute [local instance] Dtype.float64

/-- SSP spectra at five metallicities and three ages: multiples of the spectrum used in `Verif.Props.Photometry` -/
noncomputable def caseLib (i : Fin 5) (j : Fin 3) (l : Fin 3) : ℝ := (1 + i + 2 * j) * caseLum l

theorem caseLib_pos (i : Fin 5) (j : Fin 3) :
    0 < obs_flux_ssp (n := 1) (m := 2) caseWave (caseLib i j) caseFW caseFT (1 / 2) / flux_ab0_at_10pc caseFW caseFT := by
  show 0 < obs_flux_ssp (n := 1) (m := 2) caseWave (fun l => (1 + (i:ℝ) + 2 * j) * caseLum l) caseFW caseFT (1 / 2) / _
  rw [obs_flux_smul, mul_div_assoc]
  exact mul_pos (by positivity) case_obs_flux

theorem caseLib_rest (i : Fin 5) (j : Fin 3) : 0 < calc_rest_flux (n := 1) (m := 2) caseWave (caseLib i j) caseFW caseFT := by
  show 0 < rest_flux_ssp (n := 1) (m := 2) caseWave (fun l => (1 + (i:ℝ) + 2 * j) * caseLum l) caseFW caseFT / flux_ab0_at_10pc caseFW caseFT
  rw [← obs_eq_rest_at_zero]
  rw [obs_flux_smul, mul_div_assoc]
  exact mul_pos (by positivity) caseRed_pos

theorem case_trans : 0 < trapz (n := 2) caseFW caseFT := by
  rw [trapz_eq]; simp [Fin.sum_univ_succ, caseFW, caseFT]; norm_num

/-- at redshift 1/2 the filter sees rest-frame wavelengths around 3333 Å -/
theorem case_band_z : InBand (n := 1) (m := 2) caseWave caseFW caseFT (1 / 2) 0 1 := fun i h => by
  rw [caseFT_one h]; norm_num [caseWave, caseFW]

theorem caseW_prob : IsProbMatrix fun (i : Fin 2) (j : Fin 2) => (![![0.1, 0.2], ![0.3, 0.4]] : Fin 2 → Fin 2 → ℝ) i j := by
  refine ⟨fun i j => by fin_cases i <;> fin_cases j <;> norm_num, ?_⟩
  simp [Fin.sum_univ_succ]; norm_num

example := C149_mixture (nm := 2) (na := 2) (nf := 1) (nz := 1) (n := 1) (m := 2) (M := 1e10) (F := fun i j => caseLib i.castSucc.castSucc.castSucc j.castSucc)
  (fws := fun _ => caseFW) (fts := fun _ => caseFT) (zs := fun _ => 1 / 2) (wave := caseWave) (z := 1 / 2) (by norm_num) caseW_prob 0.3 (-1) 0 0.7 0
example := (C149_mixture (nm := 2) (na := 2) (nf := 1) (nz := 1) (n := 1) (m := 2) (M := 1e10) (F := fun i j => caseLib i.castSucc.castSucc.castSucc j.castSucc)
  (fws := fun _ => caseFW) (fts := fun _ => caseFT) (zs := fun _ => 1 / 2) (wave := caseWave) (z := 1 / 2) (by norm_num) caseW_prob 0.3 (-1) 0 0.7 0).1 0 fun _ _ => caseLib_pos _ _
/-- the spectra differ only by a factor, so every part has the same colour between the two redshifts -/
example := C149_colour_between (nm := 2) (na := 2) (n := 1) (m := 2) (m' := 2) (M := 1e10) (F := fun i j => caseLib i.castSucc.castSucc.castSucc j.castSucc)
  (wave := caseWave) (fw := caseFW) (ft := caseFT) (fw' := caseFW) (ft' := caseFT) (z := 1 / 2) (z' := 1 / 2) (lo := 0) (hi := 0) (by norm_num) caseW_prob 0.3 (-1) 0 0.7
  (fun _ _ => caseLib_pos _ _) (fun _ _ => caseLib_pos _ _) (fun i j _ => by simp)
example := C149_galaxy (nf := 1) (nz := 1) (n := 1) (m := 2) (s := caseS) (zt := caseZT) (gal_lgmet := -3) (sfr_min := 1e-14) (flux := caseLib) case_sedInputs
  (fws := fun _ => caseFW) (fts := fun _ => caseFT) (zs := fun _ => 1 / 2) (wave := caseWave) 0.3 (-1) 0 0.7 0 0 caseLib_pos
example := C149_galaxy_rest (nf := 1) (n := 1) (m := 2) (s := caseS) (zt := caseZT) (gal_lgmet := -3) (sfr_min := 1e-14) (flux := caseLib) case_sedInputs
  (fws := fun _ => caseFW) (fts := fun _ => caseFT) (wave := caseWave) 0 (1 / 2) caseLib_rest caseLib_pos
example := C149_effective_in_band (n := 1) (m := 2) case_good case_trans (by norm_num) case_band_z
/-- the reddening curve `4.05 · (5000 Å / λ)` -/
example := C149_effective_falling (n := 1) (m := 2) (av := 0.5) (curve := fun x => 4.05 * (5000 / x)) caseWave_mono case_good case_trans (by norm_num) case_band_z
  caseLum_nonneg case_obs_flux (by norm_num)
  (fun x hx y _ h => by
    have : 0 < x := lt_of_lt_of_le (by norm_num [caseWave]) hx.1
    show 4.05 * (5000 / y) ≤ 4.05 * (5000 / x)
    gcongr) (by norm_num [caseWave]) 0.3 (-1) 0 0.7
example := C149_dusty_galaxy (nf := 1) (nz := 1) (n := 1) (m := 2) (s := caseS) (zt := caseZT) (gal_lgmet := -3) (sfr_min := 1e-14) (flux := caseLib) (av := 0.5)
  (curve := fun x => 4.05 * (5000 / x)) case_sedInputs
  (fws := fun _ => caseFW) (fts := fun _ => caseFT) (zs := fun _ => 1 / 2) (wave := caseWave) 0.3 (-1) 0 0.7 0 0 caseLib_pos
  (fun i j l => mul_nonneg (by positivity) (caseLum_nonneg l)) caseWave_mono case_good case_trans (by norm_num) case_band_z (by norm_num)
  (fun x hx y _ h => by
    have : 0 < x := lt_of_lt_of_le (by norm_num [caseWave]) hx.1
    show 4.05 * (5000 / y) ≤ 4.05 * (5000 / x)
    gcongr) (by norm_num [caseWave])
end

end Dsps.Props
