import Verif.Model.XFPhot
import Verif.Lemmas.XFSed
import Verif.Lemmas.Cosmology
import Verif.Props.Photometry
import Verif.Cases

/-! Which inputs give finite magnitudes, distances, blackbody spectra, bursts (float model of `Verif/Model/XFPhot.lean`). -/
namespace Dsps.Props
open XF Dsps.Lemmas Dsps.Constants Spec Dsps.XFPhot

variable {n m : ℕ}

theorem rep_one : Rep (1 : XF) 1 := Rep.fin 1

/-! ## C81: rest-frame magnitudes -/

section
variable [Jnp.Dtype]

theorem rep_obs_flux {wave lum : Fin (n + 2) → ℝ} {fw ft : Fin (m + 1) → ℝ} (hfw : ∀ i, fw i ≠ 0) (z : ℝ) :
    Rep (XFPhot.obs_flux_ssp (fun j => fin (wave j)) (fun j => fin (lum j)) (fun j => fin (fw j)) (fun j => fin (ft j)) (fin z))
      (Photometry.obs_flux_ssp wave lum fw ft z) :=
  rep_trapz (RepV.fin fw) fun i => ((Rep.fin (ft i)).mul (rep_interpLR (fun j => (Rep.fin (wave j)).mul (rep_one.add (Rep.fin z)))
    (RepV.fin lum) (Rep.fin (fw i)) (Rep.fin 0) (Rep.fin 0))).div (Rep.fin (fw i)) (hfw i)

theorem rep_rest_flux {wave lum : Fin (n + 2) → ℝ} {fw ft : Fin (m + 1) → ℝ} (hfw : ∀ i, fw i ≠ 0) :
    Rep (XFPhot.rest_flux_ssp (fun j => fin (wave j)) (fun j => fin (lum j)) (fun j => fin (fw j)) (fun j => fin (ft j)))
      (Photometry.rest_flux_ssp wave lum fw ft) :=
  rep_trapz (RepV.fin fw) fun i => ((Rep.fin (ft i)).mul (rep_interpLR (RepV.fin wave)
    (RepV.fin lum) (Rep.fin (fw i)) (Rep.fin 0) (Rep.fin 0))).div (Rep.fin (fw i)) (hfw i)

omit [Jnp.Dtype] in
theorem rep_ab0 {fw ft : Fin (m + 1) → ℝ} (hfw : ∀ i, fw i ≠ 0) :
    Rep (XFPhot.flux_ab0_at_10pc (fun j => fin (fw j)) (fun j => fin (ft j))) (Photometry.flux_ab0_at_10pc fw ft) :=
  rep_trapz (RepV.fin fw) fun i => ((Rep.fin (ft i)).mul (Rep.fin Photometry.AB0)).div (Rep.fin (fw i)) (hfw i)

omit [Jnp.Dtype] in
theorem rep_m25 : Rep (-2.5 : XF) (-2.5) := (Rep.fin 2.5).neg

omit [Jnp.Dtype] in
/-- `-2.5 log10(f)` -/
theorem mag_cases {f : XF} {x : ℝ} (h : Rep f x) :
    (0 < x → Rep (-2.5 * XF.log10 f) (-2.5 * Real.logb 10 x)) ∧ (x = 0 → -2.5 * XF.log10 f = inf false) ∧
    (x < 0 → -2.5 * XF.log10 f = nan) := by
  refine ⟨fun hx => rep_m25.mul (rep_log10 h hx), fun hx => ?_, fun hx => ?_⟩
  · subst hx
    rw [h.log10_zero, rep_m25.mul_inf (by norm_num)]
    have : decide ((-2.5 : ℝ) < 0) = true := by simp; norm_num
    rw [this]; rfl
  · rw [h.log10_neg hx, mul_nan]

/-- C81: the rest-frame flux is finite whenever the filter wavelengths and the filter's AB normalisation are not zero, and the magnitude is then
finite for positive flux, `+inf` for zero flux and nan for negative flux. -/
theorem C81_rest_mag (wave lum : Fin (n + 2) → ℝ) (fw ft : Fin (m + 1) → ℝ) (hfw : ∀ i, fw i ≠ 0)
    (hA : Photometry.flux_ab0_at_10pc fw ft ≠ 0) :
    let M := XFPhot.calc_rest_mag (fun j => fin (wave j)) (fun j => fin (lum j)) (fun j => fin (fw j)) (fun j => fin (ft j))
    let F := XFPhot.calc_rest_flux (fun j => fin (wave j)) (fun j => fin (lum j)) (fun j => fin (fw j)) (fun j => fin (ft j))
    let flux := Photometry.calc_rest_flux wave lum fw ft
    Rep F flux ∧ (0 < flux → Rep M (Photometry.calc_rest_mag wave lum fw ft)) ∧ (flux = 0 → M = inf false) ∧
      (flux < 0 → M = nan) := by
  intro M F flux
  have hF : Rep F flux := (rep_rest_flux hfw).div (rep_ab0 hfw) hA
  have := mag_cases hF
  exact ⟨hF, this.1, this.2.1, this.2.2⟩

/-- C81: for a physical filter and a spectrum that is nowhere negative the magnitude is never nan: it is finite, or `+inf` exactly if the flux through the
filter is zero; in particular it is `+inf` if no filter wavelength is covered by the spectrum. -/
theorem C81_rest_mag_physical (wave lum : Fin (n + 2) → ℝ) (fw ft : Fin (m + 1) → ℝ) (hw : Monotone wave) (hf : GoodFilter fw ft)
    (hA : Photometry.flux_ab0_at_10pc fw ft ≠ 0) (hl : ∀ i, 0 ≤ lum i) :
    let M := XFPhot.calc_rest_mag (fun j => fin (wave j)) (fun j => fin (lum j)) (fun j => fin (fw j)) (fun j => fin (ft j))
    ((0 < Photometry.calc_rest_flux wave lum fw ft ∧ Rep M (Photometry.calc_rest_mag wave lum fw ft)) ∨
      (Photometry.calc_rest_flux wave lum fw ft = 0 ∧ M = inf false)) ∧
    ((∀ i, fw i < wave 0 ∨ wave (Fin.last (n + 1)) < fw i) → M = inf false) := by
  intro M
  have hfw : ∀ i, fw i ≠ 0 := fun i => (hf.2.1 i).ne'
  have h := C81_rest_mag wave lum fw ft hfw hA
  have h0 := C42_nonnegative hw hf hl
  refine ⟨?_, fun hout => ?_⟩
  · rcases h0.lt_or_eq with h1 | h1
    · exact Or.inl ⟨h1, h.2.1 h1⟩
    · exact Or.inr ⟨h1.symm, h.2.2.1 h1.symm⟩
  · refine h.2.2.1 ?_
    have hint : ∀ i, Jnp.interpLR (fw i) wave lum 0 0 = 0 := by
      intro i
      rcases hout i with h | h
      · exact Jnp.interp_of_lt hw h
      · exact Jnp.interp_of_gt h
    unfold Photometry.calc_rest_flux Photometry.rest_flux_ssp
    simp only [hint, mul_zero, zero_div]
    rw [trapz_eq]
    simp

/-- C81: a filter that transmits nothing gives nan for flux and magnitude. -/
theorem C81_dead_filter (wave lum : Fin (n + 2) → ℝ) (fw : Fin (m + 1) → ℝ) (hfw : ∀ i, fw i ≠ 0) :
    XFPhot.calc_rest_flux (fun j => fin (wave j)) (fun j => fin (lum j)) (fun j => fin (fw j)) (fun _ => fin 0) = nan ∧
    XFPhot.calc_rest_mag (fun j => fin (wave j)) (fun j => fin (lum j)) (fun j => fin (fw j)) (fun _ => fin 0) = nan := by
  have h1 := rep_rest_flux (wave := wave) (lum := lum) (ft := fun _ => 0) hfw
  have h2 := rep_ab0 (ft := fun _ => 0) hfw
  have e1 : Photometry.rest_flux_ssp wave lum fw (fun _ => 0) = 0 := by
    unfold Photometry.rest_flux_ssp; simp only [zero_mul, zero_div]; rw [trapz_eq]; simp
  have e2 : Photometry.flux_ab0_at_10pc fw (fun _ => 0) = 0 := by
    unfold Photometry.flux_ab0_at_10pc; simp only [zero_mul, zero_div]; rw [trapz_eq]; simp
  rw [e1] at h1; rw [e2] at h2
  have : XFPhot.calc_rest_flux (fun j => fin (wave j)) (fun j => fin (lum j)) (fun j => fin (fw j)) (fun _ => fin 0) = nan := by
    unfold XFPhot.calc_rest_flux; simp only; rw [h1.div_zero h2, if_pos rfl]
  refine ⟨this, ?_⟩
  unfold XFPhot.calc_rest_mag; simp only; rw [this, log10_nan, mul_nan]

end

/-! ## C82: distances and observer-frame magnitudes -/

theorem rep_sqrt {a : XF} {x : ℝ} (h : Rep a x) (hx : 0 ≤ x) : Rep (XFPhot.sqrt a) (Real.sqrt x) := by
  rcases h with rfl | ⟨rfl, rfl⟩
  · unfold XFPhot.sqrt; simp only; rw [if_neg hx.not_gt]; exact Rep.fin _
  · rw [Real.sqrt_zero]; exact Rep.nzero

theorem rep_pow {a b : XF} {x y : ℝ} (ha : Rep a x) (hb : Rep b y) (hx : 0 < x) : Rep (XFUtils.pow a b) (x ^ y) := by
  rcases ha with rfl | ⟨rfl, rfl⟩
  · rcases hb with rfl | ⟨rfl, rfl⟩
    · unfold XFUtils.pow; simp only; rw [if_pos hx]; exact Rep.fin _
    · unfold XFUtils.pow; simp only; rw [if_pos hx, Real.rpow_zero]; exact Rep.fin 1
  · exact absurd hx (lt_irrefl _)

theorem rep_exp {a : XF} {x : ℝ} (h : Rep a x) : Rep (XF.exp a) (Real.exp x) := by rw [h.exp]; exact Rep.fin _

theorem repV_linspace {a b : XF} {x y : ℝ} (ha : Rep a x) (hb : Rep b y) (n : ℕ) : RepV (XFPhot.linspace a b n) (Jnp.linspace x y n) := by
  classical
  intro i
  have hs := (Rep.fin ((i : ℕ) : ℝ)).div (Rep.fin ((n : ℝ) + 1)) (by positivity)
  exact rep_ite Iff.rfl (fun _ => hb) fun _ => (ha.mul (rep_one.sub hs)).add (hb.mul hs)

theorem rep_lit {x : ℝ} : Rep (fin x) x := Rep.fin x

theorem rep_Ez {a : XF} {z : ℝ} (ha : Rep a z) (hz : -1 < z) {Om0 : ℝ} (hO : PhysicalOm Om0) (w0 wa : ℝ) :
    Rep (XFPhot.Ez a (fin Om0) (fin w0) (fin wa)) (FlatWcdm.Ez z Om0 w0 wa) := by
  have h1 : Rep (1.0 : XF) 1.0 := Rep.fin _
  have h3 : Rep (-3.0 : XF) (-3.0) := (Rep.fin 3.0).neg
  have hpos : (0:ℝ) < 1.0 + z := by norm_num; linarith
  have hzp := h1.add ha
  have hA := h1.div hzp hpos.ne'
  have hApos : (0:ℝ) < 1.0 / (1.0 + z) := by positivity
  have hde := (rep_pow hA (h3.mul ((h1.add (Rep.fin w0)).add (Rep.fin wa))) hApos).mul
    (rep_exp ((h3.mul (Rep.fin wa)).mul (h1.sub hA)))
  have ht := ((Rep.fin Om0).mul (hzp.npow 3)).add ((h1.sub (Rep.fin Om0)).mul hde)
  have hnn : 0 ≤ Om0 * (1.0 + z) ^ 3 + (1.0 - Om0) * FlatWcdm.rho_de_z z w0 wa := by
    have h := Ez_pos hz hO w0 wa
    unfold FlatWcdm.Ez at h
    simp only at h
    exact (Real.sqrt_pos.1 h).le
  exact rep_sqrt ht hnn

theorem linspace_gt {z : ℝ} (hz : -1 < z) (n : ℕ) (i : Fin (n + 2)) : -1 < Jnp.linspace 0 z n i := by
  unfold Jnp.linspace
  split_ifs with h
  · exact hz
  · have hi : (i : ℝ) / ((n : ℝ) + 1) ≤ 1 := by
      rw [div_le_one (by positivity)]
      exact_mod_cast Nat.lt_succ_iff.1 i.2
    have hi0 : 0 ≤ (i : ℝ) / ((n : ℝ) + 1) := by positivity
    rw [zero_mul, zero_add]
    rcases le_or_gt 0 z with h0 | h0
    · have := mul_nonneg h0 hi0
      linarith
    · have := mul_le_mul_of_nonpos_left hi h0.le
      linarith

/-- C82: the luminosity distance is finite for every redshift above -1 (physical matter density, non-zero Hubble parameter). -/
theorem C82_distance_finite {z Om0 : ℝ} (hz : -1 < z) (hO : PhysicalOm Om0) (w0 wa : ℝ) {h : ℝ} (hh : h ≠ 0) :
    Rep (XFPhot.luminosity_distance_to_z (fin z) (fin Om0) (fin w0) (fin wa) (fin h))
      (FlatWcdm.luminosity_distance_to_z z Om0 w0 wa h) := by
  have hl := repV_linspace (Rep.fin 0) (Rep.fin z) 254
  have hint : RepV (fun i => XFPhot.integrand_oneOverEz (XFPhot.linspace (fin 0) (fin z) 254 i) (fin Om0) (fin w0) (fin wa))
      (fun i => FlatWcdm.integrand_oneOverEz (Jnp.linspace 0 z 254 i) Om0 w0 wa) := fun i =>
    rep_one.div (rep_Ez (hl i) (linspace_gt hz 254 i) hO w0 wa) (Ez_pos (linspace_gt hz 254 i) hO w0 wa).ne'
  exact ((((rep_trapz hl hint).mul (Rep.fin FlatWcdm.C_SPEED)).mul (Rep.fin 1e-5)).div (Rep.fin h) hh).mul (rep_one.add (Rep.fin z))

theorem lumdist_sign {z Om0 : ℝ} (hz : -1 < z) (hO : PhysicalOm Om0) (w0 wa : ℝ) {h : ℝ} (hh : 0 < h) :
    (0 < z → 0 < FlatWcdm.luminosity_distance_to_z z Om0 w0 wa h) ∧ (z = 0 → FlatWcdm.luminosity_distance_to_z z Om0 w0 wa h = 0) ∧
    (z < 0 → FlatWcdm.luminosity_distance_to_z z Om0 w0 wa h < 0) := by
  unfold FlatWcdm.luminosity_distance_to_z
  rw [comoving_eq]
  have hk := CK_pos hh
  refine ⟨fun hz0 => ?_, fun hz0 => ?_, fun hz0 => ?_⟩
  · have := Dtrap_pos hz0 hO w0 wa
    have : 0 < 1 + z := by linarith
    positivity
  · subst hz0; rw [Dtrap_zero, zero_mul, zero_mul]
  · have hneg : Dtrap z Om0 w0 wa < 0 := by
      unfold Dtrap
      rw [trapz_linspace]
      refine Finset.sum_neg (fun i _ => ?_) ⟨0, Finset.mem_univ _⟩
      have h1 := Ez_pos (linspace_gt hz 254 i.castSucc) hO w0 wa
      have h2 := Ez_pos (linspace_gt hz 254 i.succ) hO w0 wa
      have hs : 0 < FlatWcdm.integrand_oneOverEz (Jnp.linspace 0 z 254 i.castSucc) Om0 w0 wa +
          FlatWcdm.integrand_oneOverEz (Jnp.linspace 0 z 254 i.succ) Om0 w0 wa := by
        unfold FlatWcdm.integrand_oneOverEz
        positivity
      exact div_neg_of_neg_of_pos (mul_neg_of_neg_of_pos (div_neg_of_neg_of_pos hz0 (by positivity)) hs) (by norm_num)
    have hz1 : 0 < 1 + z := by linarith
    exact mul_neg_of_neg_of_pos (mul_neg_of_neg_of_pos hneg hk) hz1

/-- C82: the distance modulus is finite for positive redshift, `-inf` at redshift zero and nan for negative redshifts. -/
theorem C82_distance_modulus {z Om0 : ℝ} (hz : -1 < z) (hO : PhysicalOm Om0) (w0 wa : ℝ) {h : ℝ} (hh : 0 < h) :
    let mu := XFPhot.distance_modulus_to_z (fin z) (fin Om0) (fin w0) (fin wa) (fin h)
    (0 < z → Rep mu (FlatWcdm.distance_modulus_to_z z Om0 w0 wa h)) ∧ (z = 0 → mu = inf true) ∧ (z < 0 → mu = nan) := by
  intro mu
  have hd := (C82_distance_finite hz hO w0 wa hh.ne').mul (Rep.fin 1e5)
  have hs := lumdist_sign hz hO w0 wa hh
  have h5 : Rep (5.0 : XF) 5.0 := Rep.fin _
  refine ⟨fun h0 => ?_, fun h0 => ?_, fun h0 => ?_⟩
  · exact h5.mul (rep_log10 hd (mul_pos (hs.1 h0) (by norm_num)))
  · have hd' : Rep (XFPhot.luminosity_distance_to_z (fin z) (fin Om0) (fin w0) (fin wa) (fin h) * fin 1e5) 0 := by
      have := hd; rwa [hs.2.1 h0, zero_mul] at this
    have e := hd'.log10_zero
    show (5.0 : XF) * XF.log10 (XFPhot.luminosity_distance_to_z (fin z) (fin Om0) (fin w0) (fin wa) (fin h) * fin 1e5) = _
    rw [e, h5.mul_inf (by norm_num)]
    have : decide ((5.0 : ℝ) < 0) = false := by simp; norm_num
    rw [this]; rfl
  · have e := hd.log10_neg (mul_neg_of_neg_of_pos (hs.2.2 h0) (by norm_num))
    show (5.0 : XF) * XF.log10 (XFPhot.luminosity_distance_to_z (fin z) (fin Om0) (fin w0) (fin wa) (fin h) * fin 1e5) = _
    rw [e, mul_nan]

section
variable [Jnp.Dtype]

/-- C82: the apparent magnitude at positive redshift is finite exactly for positive flux; at redshift zero it is `-inf` whatever the (positive) flux, and
nan for zero flux. -/
theorem C82_obs_mag (wave lum : Fin (n + 2) → ℝ) (fw ft : Fin (m + 1) → ℝ) (hfw : ∀ i, fw i ≠ 0)
    (hA : Photometry.flux_ab0_at_10pc fw ft ≠ 0) {z Om0 : ℝ} (hz : 0 ≤ z) (hO : PhysicalOm Om0) (w0 wa : ℝ) {h : ℝ} (hh : 0 < h) :
    let M := XFPhot.calc_obs_mag (fun j => fin (wave j)) (fun j => fin (lum j)) (fun j => fin (fw j)) (fun j => fin (ft j)) (fin z)
      (fin Om0) (fin w0) (fin wa) (fin h)
    let flux := Photometry.obs_flux_ssp wave lum fw ft z / Photometry.flux_ab0_at_10pc fw ft
    (0 < z → (0 < flux → Rep M (Photometry.calc_obs_mag wave lum fw ft z Om0 w0 wa h)) ∧ (flux = 0 → M = inf false) ∧
      (flux < 0 → M = nan)) ∧
    (z = 0 → (0 < flux → M = inf true) ∧ (flux ≤ 0 → M = nan)) := by
  intro M flux
  have hF := (rep_obs_flux (wave := wave) (lum := lum) (ft := ft) hfw z).div (rep_ab0 hfw) hA
  obtain ⟨m1, m2, m3⟩ := mag_cases hF
  obtain ⟨d1, d2, -⟩ := C82_distance_modulus (by linarith : -1 < z) hO w0 wa hh
  have hk : Rep (2.5 * XF.log10 (1 + fin z)) (2.5 * Jnp.log10 (1 + z)) :=
    (Rep.fin 2.5).mul (rep_log10 (rep_one.add (Rep.fin z)) (by linarith))
  have hM : M = -2.5 * XF.log10 (XFPhot.obs_flux_ssp (fun j => fin (wave j)) (fun j => fin (lum j)) (fun j => fin (fw j))
      (fun j => fin (ft j)) (fin z) / XFPhot.flux_ab0_at_10pc (fun j => fin (fw j)) (fun j => fin (ft j))) +
      (XFPhot.distance_modulus_to_z (fin z) (fin Om0) (fin w0) (fin wa) (fin h) - 2.5 * XF.log10 (1 + fin z)) := rfl
  refine ⟨fun h0 => ⟨fun hf => ?_, fun hf => ?_, fun hf => ?_⟩, fun h0 => ⟨fun hf => ?_, fun hf => ?_⟩⟩
  · exact (m1 hf).add ((d1 h0).sub hk)
  · rw [hM, m2 hf, ((d1 h0).sub hk).inf_add]
  · rw [hM, m3 hf, nan_add]
  · rw [hM, d2 h0, hk.inf_sub, (m1 hf).add_inf]
  · rw [hM, d2 h0, hk.inf_sub]
    rcases hf.lt_or_eq with hf | hf
    · rw [m3 hf, nan_add]
    · rw [m2 hf]; rfl

end

/-- Non-vacuity of C81 and C82: a two-point filter and the shipped cosmology. -/
example : ∃ fw ft : Fin 2 → ℝ, (∀ i, fw i ≠ 0) ∧ GoodFilter fw ft ∧ Photometry.flux_ab0_at_10pc fw ft ≠ 0 ∧
    PhysicalOm FlatWcdm.PLANCK15.Om0 ∧ 0 < FlatWcdm.PLANCK15.h := by
  refine ⟨![1, 2], ![1, 1], ?_, ⟨?_, ?_, ?_⟩, ?_, ⟨by norm_num [FlatWcdm.PLANCK15], by norm_num [FlatWcdm.PLANCK15]⟩,
    by norm_num [FlatWcdm.PLANCK15]⟩
  · intro i; fin_cases i <;> norm_num
  · intro i j; fin_cases i <;> fin_cases j <;> norm_num
  · intro i; fin_cases i <;> norm_num
  · intro i; fin_cases i <;> norm_num
  · unfold Photometry.flux_ab0_at_10pc
    simp only
    rw [trapz_eq]
    simp [Photometry.AB0]
    norm_num

/-! ## C83: blackbody -/

open Blackbody in
/-- C83: the blackbody spectrum per unit frequency: finite for positive frequency and non-zero temperature; exactly zero at zero
temperature; nan at zero and at negative frequency. -/
theorem C83_blackbody_freq (freq T : ℝ) :
    (0 < freq → T ≠ 0 → Rep (XFPhot.blackbody_freq_density (fin freq) (fin T)) (Blackbody.blackbody_freq_density freq T)) ∧
    (0 < freq → T = 0 → Rep (XFPhot.blackbody_freq_density (fin freq) (fin T)) 0) ∧
    (freq ≤ 0 → XFPhot.blackbody_freq_density (fin freq) (fin T) = nan) := by
  have hH : 0 < H_PLANCK := by norm_num [H_PLANCK]
  have hK : 0 < K_BOLTZ := by norm_num [K_BOLTZ]
  have hW : WATTS_PER_LSUN ≠ 0 := by norm_num [WATTS_PER_LSUN]
  have hnu : Rep (fin H_PLANCK * fin freq) (H_PLANCK * freq) := (Rep.fin _).mul (Rep.fin _)
  have hkt : Rep (fin K_BOLTZ * fin T) (K_BOLTZ * T) := (Rep.fin _).mul (Rep.fin _)
  have hlg1 : Rep (fin LG2 + fin LGH - 2 * fin LGC) (LG2 + LGH - 2 * LGC) :=
    ((Rep.fin _).add (Rep.fin _)).sub ((Rep.fin 2).mul (Rep.fin _))
  have h3 : Rep (3 : XF) 3 := Rep.fin 3
  have hunf : XFPhot.blackbody_freq_density (fin freq) (fin T) = 1 / (XF.exp (fin H_PLANCK * fin freq / (fin K_BOLTZ * fin T)) - 1) *
      XF.exp (fin LG2 + fin LGH - 2 * fin LGC + 3 * XF.log (fin freq)) / fin WATTS_PER_LSUN := rfl
  refine ⟨fun hf hT => ?_, fun hf hT => ?_, fun hf => ?_⟩
  · have hl : Rep (XF.log (fin freq)) (Real.log freq) := by rw [(Rep.fin freq).log hf]; exact Rep.fin _
    have hx := hnu.div hkt (mul_ne_zero hK.ne' hT)
    have hne : Real.exp (H_PLANCK * freq / (K_BOLTZ * T)) - 1 ≠ 0 := by
      rw [sub_ne_zero, Ne, Real.exp_eq_one_iff]
      exact div_ne_zero (mul_ne_zero hH.ne' hf.ne') (mul_ne_zero hK.ne' hT)
    have hden := rep_one.div ((rep_exp hx).sub rep_one) hne
    exact (hden.mul (rep_exp (hlg1.add (h3.mul hl)))).div (Rep.fin _) hW
  · subst hT
    have hl : Rep (XF.log (fin freq)) (Real.log freq) := by rw [(Rep.fin freq).log hf]; exact Rep.fin _
    have hkt0 : Rep (fin K_BOLTZ * fin 0) 0 := by have := hkt; rwa [mul_zero] at this
    have hnu0 : H_PLANCK * freq ≠ 0 := mul_ne_zero hH.ne' hf.ne'
    have hx : fin H_PLANCK * fin freq / (fin K_BOLTZ * fin 0) = inf false := by
      rw [hnu.div_zero hkt0, if_neg hnu0, hnu.signbit hnu0]
      have e1 : decide (H_PLANCK * freq < 0) = false := by simpa using (mul_pos hH hf).le
      have e2 : (fin K_BOLTZ * fin 0).signbit = false := by
        show (XF.mul _ _).signbit = false
        have hK' : ¬ K_BOLTZ < 0 := hK.not_gt
        simp [XF.mul, XF.val, XF.signbit, zeroOf, hK']
      rw [e1, e2]; rfl
    rw [hunf, hx]
    have e3 : XF.exp (inf false) - 1 = inf false := (Rep.fin 1).inf_sub false
    rw [e3]
    have hden : Rep (1 / inf false : XF) 0 := rep_one.div_inf false
    have := (hden.mul (rep_exp (hlg1.add (h3.mul hl)))).div (Rep.fin WATTS_PER_LSUN) hW
    rwa [zero_mul, zero_div] at this
  · rw [hunf]
    rcases hf.lt_or_eq with hf | hf
    · rw [(Rep.fin freq).log_neg hf, mul_nan, add_nan, exp_nan, mul_nan, nan_div]
    · subst hf
      have hl : XF.log (fin 0) = inf true := (Rep.fin 0).log_zero
      have e1 : (3 : XF) * inf true = inf true := by
        rw [h3.mul_inf (by norm_num)]
        have : decide ((3 : ℝ) < 0) = false := by simp
        rw [this]; rfl
      rw [hl, e1, hlg1.add_inf]
      have hnu0 : Rep (fin H_PLANCK * fin 0) 0 := by have := hnu; rwa [mul_zero] at this
      have hmul : (1 / (XF.exp (fin H_PLANCK * fin 0 / (fin K_BOLTZ * fin T)) - 1) * XF.exp (inf true) : XF) = nan := by
        have hexp : XF.exp (inf true) = fin 0 := rfl
        rw [hexp]
        by_cases hT : T = 0
        · subst hT
          have hkt0 : Rep (fin K_BOLTZ * fin 0) 0 := by have := hkt; rwa [mul_zero] at this
          rw [hnu0.div_zero hkt0, if_pos rfl, exp_nan, nan_sub, div_nan, nan_mul]
        · have hx := hnu0.div hkt (mul_ne_zero hK.ne' hT)
          rw [zero_div] at hx
          have h0 : Rep (XF.exp (fin H_PLANCK * fin 0 / (fin K_BOLTZ * fin T)) - 1) 0 := by
            have := (rep_exp hx).sub rep_one
            rwa [Real.exp_zero, sub_self] at this
          rw [rep_one.div_zero h0, if_neg one_ne_zero, (Rep.fin 0).inf_mul_zero]
      rw [hmul, nan_div]

open Blackbody in
/-- C83: the same per unit wavelength: finite for positive wavelength and non-zero temperature, zero at zero temperature, nan at
zero and negative wavelength. -/
theorem C83_blackbody_wave (wave T : ℝ) :
    (0 < wave → T ≠ 0 → Rep (XFPhot.blackbody_wave_density (fin wave) (fin T)) (Blackbody.blackbody_wave_density wave T)) ∧
    (0 < wave → T = 0 → Rep (XFPhot.blackbody_wave_density (fin wave) (fin T)) 0) ∧
    (wave < 0 → XFPhot.blackbody_wave_density (fin wave) (fin T) = nan) ∧
    (wave = 0 → 0 < T → XFPhot.blackbody_wave_density (fin wave) (fin T) = nan) := by
  have hH : 0 < H_PLANCK := by norm_num [H_PLANCK]
  have hC : 0 < C_SPEED := by norm_num [C_SPEED]
  have hK : 0 < K_BOLTZ := by norm_num [K_BOLTZ]
  have hW : WATTS_PER_LSUN ≠ 0 := by norm_num [WATTS_PER_LSUN]
  have h10 : ((1e10 : ℝ)) ≠ 0 := by norm_num
  have hwm : Rep (fin wave / fin 1e10) (wave / 1e10) := (Rep.fin _).div (Rep.fin _) h10
  have hhc : Rep (fin H_PLANCK * fin C_SPEED) (H_PLANCK * C_SPEED) := (Rep.fin _).mul (Rep.fin _)
  have hkt : Rep (fin K_BOLTZ * fin T) (K_BOLTZ * T) := (Rep.fin _).mul (Rep.fin _)
  have hlg1 : Rep (fin LG2 + fin LGH + 2 * fin LGC) (LG2 + LGH + 2 * LGC) :=
    ((Rep.fin _).add (Rep.fin _)).add ((Rep.fin 2).mul (Rep.fin _))
  have h5 : Rep (5 : XF) 5 := Rep.fin 5
  have hunf : XFPhot.blackbody_wave_density (fin wave) (fin T) =
      XF.exp (fin LG2 + fin LGH + 2 * fin LGC - 5 * XF.log (fin wave / fin 1e10)) *
      (1 / (XF.exp (fin H_PLANCK * fin C_SPEED / (fin K_BOLTZ * fin T) / (fin wave / fin 1e10)) - 1)) / fin WATTS_PER_LSUN *
      fin 1e-10 := rfl
  refine ⟨fun hf hT => ?_, fun hf hT => ?_, fun hf => ?_, fun hf hT => ?_⟩
  · have hwp : 0 < wave / 1e10 := by positivity
    have hl : Rep (XF.log (fin wave / fin 1e10)) (Real.log (wave / 1e10)) := by rw [hwm.log hwp]; exact Rep.fin _
    have hx := (hhc.div hkt (mul_ne_zero hK.ne' hT)).div hwm hwp.ne'
    have hne : Real.exp (H_PLANCK * C_SPEED / (K_BOLTZ * T) / (wave / 1e10)) - 1 ≠ 0 := by
      rw [sub_ne_zero, Ne, Real.exp_eq_one_iff]
      exact div_ne_zero (div_ne_zero (mul_ne_zero hH.ne' hC.ne') (mul_ne_zero hK.ne' hT)) hwp.ne'
    have hden := rep_one.div ((rep_exp hx).sub rep_one) hne
    exact (((rep_exp (hlg1.sub (h5.mul hl))).mul hden).div (Rep.fin _) hW).mul (Rep.fin _)
  · subst hT
    have hwp : 0 < wave / 1e10 := by positivity
    have hl : Rep (XF.log (fin wave / fin 1e10)) (Real.log (wave / 1e10)) := by rw [hwm.log hwp]; exact Rep.fin _
    have hkt0 : Rep (fin K_BOLTZ * fin 0) 0 := by have := hkt; rwa [mul_zero] at this
    have hhc0 : H_PLANCK * C_SPEED ≠ 0 := mul_ne_zero hH.ne' hC.ne'
    have hx : fin H_PLANCK * fin C_SPEED / (fin K_BOLTZ * fin 0) = inf false := by
      rw [hhc.div_zero hkt0, if_neg hhc0, hhc.signbit hhc0]
      have e1 : decide (H_PLANCK * C_SPEED < 0) = false := by simpa using (mul_pos hH hC).le
      have e2 : (fin K_BOLTZ * fin 0).signbit = false := by
        show (XF.mul _ _).signbit = false
        have hK' : ¬ K_BOLTZ < 0 := hK.not_gt
        simp [XF.mul, XF.val, XF.signbit, zeroOf, hK']
      rw [e1, e2]; rfl
    rw [hunf, hx, hwm.inf_div hwp.ne']
    have e0 : decide (wave / 1e10 < 0) = false := by simpa using hwp.le
    have e3 : XF.exp (inf (xor false (decide (wave / 1e10 < 0)))) - 1 = inf false := by rw [e0]; exact (Rep.fin 1).inf_sub false
    rw [e3]
    have hden : Rep (1 / inf false : XF) 0 := rep_one.div_inf false
    have := (((rep_exp (hlg1.sub (h5.mul hl))).mul hden).div (Rep.fin WATTS_PER_LSUN) hW).mul (Rep.fin 1e-10)
    rwa [mul_zero, zero_div, zero_mul] at this
  · have hwn : wave / 1e10 < 0 := div_neg_of_neg_of_pos hf (by norm_num)
    rw [hunf, hwm.log_neg hwn, mul_nan, sub_nan, exp_nan, nan_mul, nan_div, nan_mul]
  · subst hf
    have hw0 : Rep (fin 0 / fin 1e10) 0 := by have := hwm; rwa [zero_div] at this
    have e1 : (5 : XF) * inf true = inf true := by
      rw [h5.mul_inf (by norm_num)]
      have : decide ((5 : ℝ) < 0) = false := by simp
      rw [this]; rfl
    have hktp : K_BOLTZ * T ≠ 0 := (mul_pos hK hT).ne'
    have hx := hhc.div hkt hktp
    have hxp : 0 < H_PLANCK * C_SPEED / (K_BOLTZ * T) := by positivity
    have e2 : fin H_PLANCK * fin C_SPEED / (fin K_BOLTZ * fin T) / (fin 0 / fin 1e10) = inf false := by
      rw [hx.div_zero hw0, if_neg hxp.ne', hx.signbit hxp.ne']
      have e1 : decide (H_PLANCK * C_SPEED / (K_BOLTZ * T) < 0) = false := by simpa using hxp.le
      have e2 : (fin 0 / fin 1e10 : XF).signbit = false := by
        show (XF.div _ _).signbit = false
        have hp : ¬ ((1e10 : ℝ) < 0) := by norm_num
        simp [XF.div, XF.val, XF.signbit, zeroOf, h10, hp]
      rw [e1, e2]; rfl
    have e3 : XF.exp (inf false) - 1 = inf false := (Rep.fin 1).inf_sub false
    have hden : Rep (1 / inf false : XF) 0 := rep_one.div_inf false
    rw [hunf, hw0.log_zero, e1, hlg1.sub_inf, e2, e3]
    have e4 : XF.exp (inf (!true)) = inf false := rfl
    rw [e4, hden.inf_mul_zero, nan_div, nan_mul]

/-! ## C84: power law with exponent zero -/

/-- C84: for 0 < a < b the density and the sampler are finite for every non-zero exponent, and the two finite-exponent formulas do not extend to `g = 0` (`p(x) ∝ 1/x`): the
density is then nan everywhere and the sampler returns 1 for every draw, whether or not 1 lies in [a, b]. -/
theorem C84_powerlaw (a b : ℝ) (ha : 0 < a) (hab : a < b) :
    (∀ g ≠ 0, ∀ x, 0 < x → Rep (XFUtils.powerlaw_pdf (fin x) (fin a) (fin b) (fin g)) (Utils.powerlaw_pdf x a b g)) ∧
    (∀ g ≠ 0, ∀ r, 0 ≤ r → r ≤ 1 → Rep (XFUtils.powerlaw_rvs (fin r) (fin a) (fin b) (fin g)) (Utils.powerlaw_rvs r a b g)) ∧
    (∀ x, 0 < x → XFUtils.powerlaw_pdf (fin x) (fin a) (fin b) (fin 0) = nan) ∧
    (∀ r, XFUtils.powerlaw_rvs (fin r) (fin a) (fin b) (fin 0) = fin 1) := by
  have hb : 0 < b := ha.trans hab
  refine ⟨fun g hg x hx => ?_, fun g hg r h0 h1 => ?_, fun x hx => ?_, fun r => ?_⟩
  · have hs := powerlaw_sign a b g ha hab hg
    have hne : b ^ g - a ^ g ≠ 0 := by intro h; rw [h] at hs; simp at hs
    exact ((Rep.fin g).mul (rep_pow (Rep.fin x) ((Rep.fin g).sub rep_one) hx)).div
      ((rep_pow (Rep.fin b) (Rep.fin g) hb).sub (rep_pow (Rep.fin a) (Rep.fin g) ha)) hne
  · have hag := rep_pow (Rep.fin a) (Rep.fin g) ha
    have hbg := rep_pow (Rep.fin b) (Rep.fin g) hb
    have hA := Real.rpow_pos_of_pos ha g
    have hB := Real.rpow_pos_of_pos hb g
    have hpos : 0 < a ^ g + (b ^ g - a ^ g) * r := by
      rcases h0.eq_or_lt with h | h
      · subst h; simpa using hA
      · nlinarith [mul_pos hB h, mul_nonneg hA.le (sub_nonneg.2 h1)]
    have h1' : Rep (1 / fin g : XF) (1.0 / g) := by
      have : (1.0 : ℝ) = 1 := by norm_num
      rw [this]; exact rep_one.div (Rep.fin g) hg
    exact rep_pow (hag.add ((hbg.sub hag).mul (Rep.fin r))) h1' hpos
  · have ea : XFUtils.pow (fin a) (fin 0) = fin 1 := by unfold XFUtils.pow; simp only; rw [if_pos ha, Real.rpow_zero]
    have eb : XFUtils.pow (fin b) (fin 0) = fin 1 := by unfold XFUtils.pow; simp only; rw [if_pos hb, Real.rpow_zero]
    unfold XFUtils.powerlaw_pdf
    simp only
    rw [ea, eb]
    have h1 : Rep (fin 1 - fin 1 : XF) 0 := by simpa using (Rep.fin 1).sub (Rep.fin 1)
    have h2 : Rep (fin 0 * XFUtils.pow (fin x) (fin 0 - 1)) 0 := by
      have := (Rep.fin 0).mul (rep_pow (Rep.fin x) ((Rep.fin 0).sub rep_one) hx)
      rwa [zero_mul] at this
    rw [h2.div_zero h1, if_pos rfl]
  · have ea : XFUtils.pow (fin a) (fin 0) = fin 1 := by unfold XFUtils.pow; simp only; rw [if_pos ha, Real.rpow_zero]
    have eb : XFUtils.pow (fin b) (fin 0) = fin 1 := by unfold XFUtils.pow; simp only; rw [if_pos hb, Real.rpow_zero]
    unfold XFUtils.powerlaw_rvs
    simp only
    rw [ea, eb]
    have h2 : fin 1 + (fin 1 - fin 1) * fin r = fin 1 := by
      have h1 : Rep (fin 1 - fin 1 : XF) 0 := by simpa using (Rep.fin 1).sub (Rep.fin 1)
      have h3 : Rep ((fin 1 - fin 1) * fin r) 0 := by have := h1.mul (Rep.fin r); rwa [zero_mul] at this
      rcases h3 with h | ⟨h, -⟩ <;> rw [h]
      · show XF.add _ _ = _; simp [XF.add]
      · rfl
    have h4 : (1 / fin 0 : XF) = inf false := by
      rw [rep_one.div_zero (Rep.fin 0), if_neg one_ne_zero]
      show inf (xor (fin 1).signbit (fin 0).signbit) = _
      simp [XF.signbit]
    rw [h2, h4]
    unfold XFUtils.pow
    simp only [if_true]
    rfl

/-! ## C85: bursts of zero duration -/

theorem rep_tw_gauss {a b c : XF} {x m h : ℝ} (ha : Rep a x) (hb : Rep b m) (hc : Rep c h) (h0 : h ≠ 0) :
    Rep (XFUtils.triweight_gaussian a b c) (Utils.triweight_gaussian x m h) := by
  classical
  have hz := (ha.sub hb).div hc h0
  refine rep_ite (or_congr (hz.lt_iff (Rep.fin 3).neg) (Rep.lt_iff (Rep.fin 3) hz)) (fun _ => Rep.fin 0) fun _ => ?_
  exact (((Rep.fin 35).div (Rep.fin 96) (by norm_num)).mul
    ((rep_one.sub ((hz.div (Rep.fin 3) (by norm_num)).npow 2)).npow 3)).div hc h0

/-- C85: for a burst whose maximum age differs from its peak age, the burst weights are finite on every age grid. -/
theorem C85_burst_finite (lgyr : Fin n → ℝ) (peak mx : ℝ) (hne : mx ≠ peak) (i : Fin n) :
    Rep (XFUtils.pureburst_age_weights_from_params (fun j => fin (lgyr j)) (fin peak) (fin mx) i)
      (Diffburst.pureburst_age_weights_from_params lgyr peak mx i) := by
  classical
  have hd : Rep (fin mx - fin peak) (mx - peak) := (Rep.fin _).sub (Rep.fin _)
  have hmin := (Rep.fin peak).sub hd
  have hx0 := rep_half.mul (hmin.add (Rep.fin mx))
  have hh := ((Rep.fin mx).sub hmin).div (Rep.fin 6) (by norm_num)
  have hh0 : (mx - (peak - (mx - peak))) / 6 ≠ 0 := by
    intro h; apply hne; linarith
  have hg : ∀ j, Rep _ _ := fun j => rep_tw_gauss (Rep.fin (lgyr j)) hx0 hh hh0
  have hS := rep_sum hg
  have hS' := rep_ite_val (hS.le_iff (Rep.fin 0)) rep_one hS
  have hS0 : (if Jnp.sum (fun j => Utils.triweight_gaussian (lgyr j) (0.5 * (peak - (mx - peak) + mx)) ((mx - (peak - (mx - peak))) / 6)) ≤ 0
      then (1 : ℝ) else Jnp.sum fun j => Utils.triweight_gaussian (lgyr j) (0.5 * (peak - (mx - peak) + mx)) ((mx - (peak - (mx - peak))) / 6))
      ≠ 0 := by
    split_ifs with h
    · exact one_ne_zero
    · exact (not_le.1 h).ne'
  have := (hg i).div hS' hS0
  exact this

/-- the kernel of width zero: zero away from the centre, nan at the centre -/
theorem tw_gauss_zero (x m : ℝ) : (x ≠ m → XFUtils.triweight_gaussian (fin x) (fin m) (fin 0) = fin 0) ∧
    (x = m → XFUtils.triweight_gaussian (fin x) (fin m) (fin 0) = nan) := by
  have hd : Rep (fin x - fin m) (x - m) := (Rep.fin _).sub (Rep.fin _)
  have hz := hd.div_zero (Rep.fin 0)
  unfold XFUtils.triweight_gaussian
  simp only
  rw [hz]
  constructor
  · intro h
    have hne : x - m ≠ 0 := sub_ne_zero.2 h
    rw [if_neg hne]
    rw [if_pos]
    · rfl
    · cases h : (xor (fin x - fin m).signbit (fin 0).signbit)
      · right; show XF.lt (fin 3) (inf false); simp [XF.lt]
      · left; show XF.lt (inf true) (XF.neg (fin 3)); simp [XF.neg, XF.lt]
  · intro h
    subst h
    rw [if_pos (sub_self x)]
    rw [if_neg (by simp only [not_nan_lt, not_lt_nan, or_self, not_false_eq_true])]
    have hp : ∀ k : ℕ, (nan : XF) ^ (k + 1) = nan := by
      intro k
      induction k with
      | zero => rfl
      | succ k ih =>
        show XF.npow nan (k + 1) * nan = nan
        exact mul_nan _
    rw [nan_div, hp 1, sub_nan, hp 2, mul_nan, nan_div]

/-- C85: a burst of zero duration (maximum age equal to the peak age): if some grid age equals the peak, all weights are nan, otherwise all weights are zero. -/
theorem C85_zero_width (lgyr : Fin n → ℝ) (peak : ℝ) (i : Fin n) :
    ((∃ j, lgyr j = peak) → XFUtils.pureburst_age_weights_from_params (fun j => fin (lgyr j)) (fin peak) (fin peak) i = nan) ∧
    ((∀ j, lgyr j ≠ peak) → Rep (XFUtils.pureburst_age_weights_from_params (fun j => fin (lgyr j)) (fin peak) (fin peak) i) 0) := by
  classical
  have e1 : (fin peak - fin peak : XF) = fin 0 := by
    by_cases h0 : peak = 0 <;> simp [XF.neg, XF.add, h0]
  have e2 : (fin peak - fin 0 : XF) = fin peak := by
    simp [XF.neg, XF.add]
  have e3 : (0.5 * (fin peak + fin peak) : XF) = fin peak ∨ peak = 0 := by
    by_cases h0 : peak = 0
    · exact Or.inr h0
    · left
      have h : Rep (0.5 * (fin peak + fin peak) : XF) peak := by
        have := rep_half.mul ((Rep.fin peak).add (Rep.fin peak))
        rwa [show (0.5 : ℝ) * (peak + peak) = peak by norm_num; ring] at this
      rcases h with h | ⟨-, h⟩
      · exact h
      · exact absurd h h0
  have e3' : (0.5 * (fin peak + fin peak) : XF) = fin peak := by
    rcases e3 with h | h
    · exact h
    · subst h
      show XF.mul (fin 0.5) (XF.add (fin 0) (fin 0)) = _
      have : ¬ ((0.5 : ℝ) < 0) := by norm_num
      simp [XF.mul, XF.add, XF.val, XF.signbit, zeroOf, this]
  have e4 : (fin 0 / 6 : XF) = fin 0 := by
    show XF.div (fin 0) (fin 6) = _
    simp [XF.div, XF.val, XF.signbit, zeroOf]
  have hunf : XFUtils.pureburst_age_weights_from_params (fun j => fin (lgyr j)) (fin peak) (fin peak) =
      XFUtils.zero_safe_normalize (fun j => XFUtils.triweight_gaussian (fin (lgyr j)) (fin peak) (fin 0)) := by
    unfold XFUtils.pureburst_age_weights_from_params
    simp only
    rw [e1, e2, e3', e1, e4]
  rw [hunf]
  unfold XFUtils.zero_safe_normalize
  simp only
  constructor
  · rintro ⟨j, hj⟩
    have hs := sum_nan (a := fun j => XFUtils.triweight_gaussian (fin (lgyr j)) (fin peak) (fin 0)) (i := j)
      ((tw_gauss_zero _ _).2 hj)
    rw [hs, if_neg (not_nan_le _), div_nan]
  · intro hj
    have hg : ∀ j, XFUtils.triweight_gaussian (fin (lgyr j)) (fin peak) (fin 0) = fin 0 := fun j => (tw_gauss_zero _ _).1 (hj j)
    have hS : Rep (XF.sum fun j => XFUtils.triweight_gaussian (fin (lgyr j)) (fin peak) (fin 0)) 0 := by
      have := rep_sum (fun j => (by rw [hg j]; exact Rep.fin 0 : Rep (XFUtils.triweight_gaussian (fin (lgyr j)) (fin peak) (fin 0)) 0))
      simpa [Jnp.sum] using this
    rw [if_pos (show _ ≤ (0:XF) from (hS.le_iff (Rep.fin 0)).2 le_rfl), hg i]
    have := (Rep.fin 0).div rep_one one_ne_zero
    rwa [zero_div] at this

/-! ## C86: effective wavelength -/

/-- C86: the effective wavelength of a filter is finite exactly when the transmission integrates to a non-zero number (redshift above -1); a filter that transmits nothing gives nan. -/
theorem C86_effective_wavelength (fw ft : Fin (n + 1) → ℝ) (z : ℝ) (hz : -1 < z) :
    let L := XFPhot.get_filter_effective_wavelength (fun j => fin (fw j)) (fun j => fin (ft j)) (fin z)
    (Utils.trapz fw ft ≠ 0 → Rep L (Dust.get_filter_effective_wavelength fw ft z)) ∧
    (Utils.trapz fw ft = 0 → ¬ IsFinite L) ∧ ((∀ i, ft i = 0) → L = nan) := by
  intro L
  have hN := rep_trapz (RepV.fin fw) (RepV.fin ft)
  have hP := rep_trapz (RepV.fin fw) (fun i => (Rep.fin (ft i)).mul (Rep.fin (fw i)))
  have h1 := rep_one.add (Rep.fin z)
  have hz1 : 1 + z ≠ 0 := by linarith
  have hL : L = XFSed.trapz (fun j => fin (fw j)) (fun i => fin (ft i) * fin (fw i)) / XFSed.trapz (fun j => fin (fw j)) (fun j => fin (ft j))
    / (1 + fin z) := rfl
  refine ⟨fun h => (hP.div hN h).div h1 hz1, fun h => ?_, fun h => ?_⟩
  · rw [h] at hN
    rw [hL, hP.div_zero hN]
    rintro ⟨x, hx⟩
    split_ifs at hx with h2
    · rw [nan_div] at hx; exact not_rep_nan _ hx
    · rw [h1.inf_div hz1] at hx; exact not_rep_inf _ _ hx
  · have e1 : Utils.trapz fw ft = 0 := by rw [trapz_eq]; simp [h]
    have e2 : Utils.trapz fw (fun i => ft i * fw i) = 0 := by rw [trapz_eq]; simp [h]
    rw [e1] at hN; rw [e2] at hP
    rw [hL, hP.div_zero hN, if_pos rfl, nan_div]

end Dsps.Props

namespace Dsps.Props
open XF Dsps.Lemmas Dsps.Constants Spec Dsps.XFPhot

section
attribute [local instance] Jnp.Dtype.float64
theorem caseFW_ne (i : Fin 3) : caseFW i ≠ 0 := by fin_cases i <;> norm_num [caseFW]
/-- C81 and C82 applied to the filter and spectrum of C36, at redshift 1/2 -/
example := C81_rest_mag (n := 1) (m := 2) caseWave caseLum caseFW caseFT caseFW_ne case_ab.ne'
example := C81_rest_mag_physical (n := 1) (m := 2) caseWave caseLum caseFW caseFT caseWave_mono.monotone case_good case_ab.ne'
  (by intro i; fin_cases i <;> norm_num [caseLum])
example := C81_dead_filter (n := 1) (m := 2) caseWave caseLum caseFW caseFW_ne
theorem case_Om : PhysicalOm 0.3 := ⟨by norm_num, by norm_num⟩
example := C82_distance_finite (z := 0.5) (by norm_num) case_Om (-1) 0 (h := 0.7) (by norm_num)
example := C82_distance_modulus (z := 0.5) (by norm_num) case_Om (-1) 0 (h := 0.7) (by norm_num)
example := C82_obs_mag (n := 1) (m := 2) caseWave caseLum caseFW caseFT caseFW_ne case_ab.ne' (z := 0.5) (by norm_num) case_Om (-1) 0 (h := 0.7) (by norm_num)
/-- C84, C85 and C86 applied -/
example := (C84_powerlaw 1 10 (by norm_num) (by norm_num)).1 (-1.3) (by norm_num) 2 (by norm_num)
example (i : Fin 3) := C85_burst_finite ![5, 6, 7] 5.5 7.5 (by norm_num) i
example (i : Fin 3) := (C85_zero_width ![5, 6, 7] 6 i).1 ⟨1, rfl⟩
example := C86_effective_wavelength (n := 2) caseFW caseFT 0.5 (by norm_num)
end

end Dsps.Props
