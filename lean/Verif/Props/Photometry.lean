import Verif.Lemmas.Photometry
import Verif.Props.Cosmology
import Verif.Cases

/-! C39–C46: photometry.  (C47 is with the dust utilities.) -/
namespace Dsps.Props
open Jnp Dsps.Utils Dsps.Photometry Dsps.FlatWcdm Dsps.Lemmas Spec
open scoped BigOperators

variable {n m nz nm na nf : ℕ} [Dtype]

/-! ### facts about the flux kernels -/

theorem obs_flux_smul (wave lum : Fin (n + 2) → ℝ) (fw ft : Fin (m + 1) → ℝ) (z c : ℝ) :
    obs_flux_ssp wave (fun i => c * lum i) fw ft z = c * obs_flux_ssp wave lum fw ft z := by
  unfold obs_flux_ssp
  simp only [interp0_smul]
  rw [← trapz_smul]
  congr 1; funext i; ring

theorem obs_eq_rest_at_zero (wave lum : Fin (n + 2) → ℝ) (fw ft : Fin (m + 1) → ℝ) :
    obs_flux_ssp wave lum fw ft 0 = rest_flux_ssp wave lum fw ft := by
  unfold obs_flux_ssp rest_flux_ssp; simp

theorem obs_flux_ft_smul (wave lum : Fin (n + 2) → ℝ) (fw ft : Fin (m + 1) → ℝ) (z c : ℝ) :
    obs_flux_ssp wave lum fw (fun i => c * ft i) z = c * obs_flux_ssp wave lum fw ft z := by
  unfold obs_flux_ssp
  simp only
  rw [← trapz_smul]
  congr 1; funext i; ring

theorem ab0_ft_smul (fw ft : Fin (m + 1) → ℝ) (c : ℝ) :
    flux_ab0_at_10pc fw (fun i => c * ft i) = c * flux_ab0_at_10pc fw ft := by
  unfold flux_ab0_at_10pc
  simp only
  rw [← trapz_smul]
  congr 1; funext i; ring

/-- A physical filter: positive increasing wavelengths, non-negative transmission. -/
def GoodFilter (fw ft : Fin (m + 1) → ℝ) : Prop := Monotone fw ∧ (∀ i, 0 < fw i) ∧ ∀ i, 0 ≤ ft i

theorem ab0_nonneg {fw ft : Fin (m + 1) → ℝ} (h : GoodFilter fw ft) : 0 ≤ flux_ab0_at_10pc fw ft := by
  unfold flux_ab0_at_10pc
  have h0 : trapz fw (fun _ => (0 : ℝ)) = 0 := by rw [trapz_eq]; simp
  rw [← h0]
  apply trapz_mono h.1
  intro i
  have := h.2.1 i
  have := h.2.2 i
  unfold AB0; positivity

/-- A top-hat filter is good and has positive AB flux: the hypotheses below are satisfiable. -/
example : GoodFilter ![4000, 5000, (6000 : ℝ)] ![0, 1, 0] ∧ 0 < flux_ab0_at_10pc ![4000, 5000, (6000 : ℝ)] ![0, 1, 0] := by
  refine ⟨⟨?_, ?_, ?_⟩, ?_⟩
  · rw [Fin.monotone_iff_le_succ]; intro i; fin_cases i <;> simp <;> norm_num
  · intro i; fin_cases i <;> simp
  · intro i; fin_cases i <;> simp
  · unfold flux_ab0_at_10pc AB0; simp only; rw [trapz_eq]; simp [Fin.sum_univ_succ]; norm_num

/-! ### C39 -/

/-- C39: multiplying the SED by `c` shifts every magnitude by `-2.5 log10 c`. -/
theorem C39_pogson (wave lum : Fin (n + 2) → ℝ) (fw ft : Fin (m + 1) → ℝ) (z Om0 w0 wa h : ℝ) {c : ℝ} (hc : 0 < c)
    (hflux : 0 < obs_flux_ssp wave lum fw ft z / flux_ab0_at_10pc fw ft) :
    calc_obs_mag wave (fun i => c * lum i) fw ft z Om0 w0 wa h
      = calc_obs_mag wave lum fw ft z Om0 w0 wa h - 2.5 * Real.logb 10 c ∧
    calc_obs_mag_no_dimming wave (fun i => c * lum i) fw ft z
      = calc_obs_mag_no_dimming wave lum fw ft z - 2.5 * Real.logb 10 c := by
  have e : log10 (obs_flux_ssp wave (fun i => c * lum i) fw ft z / flux_ab0_at_10pc fw ft)
      = Real.logb 10 c + log10 (obs_flux_ssp wave lum fw ft z / flux_ab0_at_10pc fw ft) := by
    unfold log10
    rw [obs_flux_smul, mul_div_assoc, Real.logb_mul hc.ne' hflux.ne']
  unfold calc_obs_mag calc_obs_mag_no_dimming
  simp only [e]
  constructor <;> ring

/-- C39 for rest-frame magnitudes. -/
theorem C39_pogson_rest (wave lum : Fin (n + 2) → ℝ) (fw ft : Fin (m + 1) → ℝ) {c : ℝ} (hc : 0 < c)
    (hflux : 0 < calc_rest_flux wave lum fw ft) :
    calc_rest_mag wave (fun i => c * lum i) fw ft = calc_rest_mag wave lum fw ft - 2.5 * Real.logb 10 c := by
  have e : calc_rest_flux wave (fun i => c * lum i) fw ft = c * calc_rest_flux wave lum fw ft := by
    unfold calc_rest_flux
    simp only [← obs_eq_rest_at_zero, obs_flux_smul]
    ring
  unfold calc_rest_mag log10
  simp only [e]
  rw [Real.logb_mul hc.ne' hflux.ne']
  ring

/-- C39: the flux defining a rest magnitude can be recovered from it. -/
theorem C39_flux_from_mag (wave lum : Fin (n + 2) → ℝ) (fw ft : Fin (m + 1) → ℝ)
    (hflux : 0 < calc_rest_flux wave lum fw ft) :
    (10 : ℝ) ^ (-0.4 * calc_rest_mag wave lum fw ft) = calc_rest_flux wave lum fw ft := by
  unfold calc_rest_mag log10
  simp only
  rw [show -0.4 * (-2.5 * Real.logb 10 (calc_rest_flux wave lum fw ft))
    = Real.logb 10 (calc_rest_flux wave lum fw ft) by ring_nf]
  exact Real.rpow_logb (by norm_num) (by norm_num) hflux

/-! ### C40 -/

/-- C40: a source of `c` times the AB reference spectrum, on a wavelength grid covering the filter at that redshift, has
no-dimming magnitude `-2.5 log10 c`; for `c = 1` it is exactly zero. -/
theorem C40_ab_zero_point {wave : Fin (n + 2) → ℝ} (hw : Monotone wave) (fw ft : Fin (m + 1) → ℝ) {z c : ℝ}
    (hz : -1 < z) (hab : flux_ab0_at_10pc fw ft ≠ 0)
    (hcov : ∀ i, wave 0 * (1 + z) ≤ fw i ∧ fw i ≤ wave (Fin.last (n + 1)) * (1 + z)) :
    calc_obs_mag_no_dimming wave (fun _ => c * 1.13492e-13) fw ft z = -2.5 * Real.logb 10 c ∧
    (c = 1 → calc_obs_mag_no_dimming wave (fun _ => c * 1.13492e-13) fw ft z = 0) := by
  have hm : Monotone fun j => wave j * (1 + z) := fun i j hij =>
    mul_le_mul_of_nonneg_right (hw hij) (by linarith)
  have e : obs_flux_ssp wave (fun _ => c * 1.13492e-13) fw ft z = c * flux_ab0_at_10pc fw ft := by
    unfold obs_flux_ssp flux_ab0_at_10pc AB0
    rw [← trapz_smul]
    simp only
    congr 1; funext i
    rw [interp0_const hm (c * 1.13492e-13) (hcov i).1 (hcov i).2]
    ring
  have e2 : calc_obs_mag_no_dimming wave (fun _ => c * 1.13492e-13) fw ft z = -2.5 * Real.logb 10 c := by
    unfold calc_obs_mag_no_dimming log10
    simp only [e]
    rw [mul_div_cancel_right₀ _ hab]
  refine ⟨e2, fun h1 => ?_⟩
  rw [e2, h1]; simp

/-- C40 at rest. -/
theorem C40_ab_zero_point_rest {wave : Fin (n + 2) → ℝ} (hw : Monotone wave) (fw ft : Fin (m + 1) → ℝ) {c : ℝ}
    (hab : flux_ab0_at_10pc fw ft ≠ 0)
    (hcov : ∀ i, wave 0 ≤ fw i ∧ fw i ≤ wave (Fin.last (n + 1))) :
    calc_rest_flux wave (fun _ => c * 1.13492e-13) fw ft = c ∧
    calc_rest_mag wave (fun _ => c * 1.13492e-13) fw ft = -2.5 * Real.logb 10 c := by
  have e : rest_flux_ssp wave (fun _ => c * 1.13492e-13) fw ft = c * flux_ab0_at_10pc fw ft := by
    unfold rest_flux_ssp flux_ab0_at_10pc AB0
    rw [← trapz_smul]
    simp only
    congr 1; funext i
    rw [interp0_const hw (c * 1.13492e-13) (hcov i).1 (hcov i).2]
    ring
  have e2 : calc_rest_flux wave (fun _ => c * 1.13492e-13) fw ft = c := by
    unfold calc_rest_flux
    simp only [e]
    rw [mul_div_cancel_right₀ _ hab]
  refine ⟨e2, ?_⟩
  unfold calc_rest_mag log10; rw [e2]

/-! ### C41 -/

/-- C41: no magnitude or normalised flux depends on the overall normalisation of the transmission curve. -/
theorem C41_filter_normalisation (wave lum : Fin (n + 2) → ℝ) (fw ft : Fin (m + 1) → ℝ) (z Om0 w0 wa h : ℝ) {c : ℝ}
    (hc : c ≠ 0) :
    calc_obs_mag wave lum fw (fun i => c * ft i) z Om0 w0 wa h = calc_obs_mag wave lum fw ft z Om0 w0 wa h ∧
    calc_obs_mag_no_dimming wave lum fw (fun i => c * ft i) z = calc_obs_mag_no_dimming wave lum fw ft z ∧
    calc_rest_mag wave lum fw (fun i => c * ft i) = calc_rest_mag wave lum fw ft ∧
    calc_rest_flux wave lum fw (fun i => c * ft i) = calc_rest_flux wave lum fw ft := by
  have e : ∀ z, obs_flux_ssp wave lum fw (fun i => c * ft i) z / flux_ab0_at_10pc fw (fun i => c * ft i)
      = obs_flux_ssp wave lum fw ft z / flux_ab0_at_10pc fw ft := by
    intro z
    rw [obs_flux_ft_smul, ab0_ft_smul, mul_div_mul_left _ _ hc]
  have e2 : calc_rest_flux wave lum fw (fun i => c * ft i) = calc_rest_flux wave lum fw ft := by
    unfold calc_rest_flux
    simp only [← obs_eq_rest_at_zero, e]
  refine ⟨?_, ?_, ?_, e2⟩
  · unfold calc_obs_mag; simp only [e]
  · unfold calc_obs_mag_no_dimming; simp only [e]
  · unfold calc_rest_mag; rw [e2]

/-! ### C42 -/

/-- C42: fluxes add (any linear combination of SEDs, any filter). -/
theorem C42_additive (wave f g : Fin (n + 2) → ℝ) (fw ft : Fin (m + 1) → ℝ) (a b : ℝ) :
    calc_rest_flux wave (fun i => a * f i + b * g i) fw ft
      = a * calc_rest_flux wave f fw ft + b * calc_rest_flux wave g fw ft := by
  have e : rest_flux_ssp wave (fun i => a * f i + b * g i) fw ft
      = a * rest_flux_ssp wave f fw ft + b * rest_flux_ssp wave g fw ft := by
    unfold rest_flux_ssp
    simp only [interp0_lin]
    rw [← trapz_smul, ← trapz_smul, ← trapz_add']
    congr 1; funext i; ring
  unfold calc_rest_flux
  simp only [e]
  ring

theorem obs_flux_mono {wave f g : Fin (n + 2) → ℝ} {fw ft : Fin (m + 1) → ℝ} (hw : Monotone wave)
    (hf : GoodFilter fw ft) {z : ℝ} (hz : -1 < z) (h : ∀ i, f i ≤ g i) :
    obs_flux_ssp wave f fw ft z ≤ obs_flux_ssp wave g fw ft z := by
  have hm : Monotone fun j => wave j * (1 + z) := fun i j hij =>
    mul_le_mul_of_nonneg_right (hw hij) (by linarith)
  unfold obs_flux_ssp
  apply trapz_mono hf.1
  intro i
  have h1 := interp0_mono hm (fw i) h
  have h2 := hf.2.1 i
  have h3 := hf.2.2 i
  simp only
  gcongr

/-- C42: a pointwise brighter SED never has smaller flux, nor (if the fainter one is detected) a larger magnitude,
at any redshift. -/
theorem C42_monotone {wave f g : Fin (n + 2) → ℝ} {fw ft : Fin (m + 1) → ℝ} (hw : Monotone wave)
    (hf : GoodFilter fw ft) {z : ℝ} (hz : -1 < z) (h : ∀ i, f i ≤ g i) (Om0 w0 wa hub : ℝ) :
    calc_rest_flux wave f fw ft ≤ calc_rest_flux wave g fw ft ∧
    (0 < obs_flux_ssp wave f fw ft z / flux_ab0_at_10pc fw ft →
      calc_obs_mag wave g fw ft z Om0 w0 wa hub ≤ calc_obs_mag wave f fw ft z Om0 w0 wa hub) ∧
    (0 < calc_rest_flux wave f fw ft → calc_rest_mag wave g fw ft ≤ calc_rest_mag wave f fw ft) := by
  have e : ∀ z, -1 < z → obs_flux_ssp wave f fw ft z / flux_ab0_at_10pc fw ft
      ≤ obs_flux_ssp wave g fw ft z / flux_ab0_at_10pc fw ft := fun z hz =>
    div_le_div_of_nonneg_right (obs_flux_mono hw hf hz h) (ab0_nonneg hf)
  have e2 : calc_rest_flux wave f fw ft ≤ calc_rest_flux wave g fw ft := by
    unfold calc_rest_flux
    simp only [← obs_eq_rest_at_zero]
    exact e 0 (by norm_num)
  refine ⟨e2, fun hp => ?_, fun hp => ?_⟩
  · have := Real.logb_le_logb_of_le (b := 10) (by norm_num) hp (e z hz)
    unfold calc_obs_mag log10
    simp only
    linarith
  · have := Real.logb_le_logb_of_le (b := 10) (by norm_num) hp e2
    unfold calc_rest_mag log10
    simp only
    linarith

/-- C42: non-negative SEDs have non-negative flux. -/
theorem C42_nonnegative {wave f : Fin (n + 2) → ℝ} {fw ft : Fin (m + 1) → ℝ} (hw : Monotone wave)
    (hf : GoodFilter fw ft) (h : ∀ i, 0 ≤ f i) : 0 ≤ calc_rest_flux wave f fw ft := by
  have h1 := obs_flux_mono hw hf (by norm_num : (-1 : ℝ) < 0) h
  have h0 : obs_flux_ssp wave (fun _ => (0 : ℝ)) fw ft 0 = 0 := by
    have := obs_flux_smul wave f fw ft 0 0; simpa using this
  unfold calc_rest_flux
  simp only [← obs_eq_rest_at_zero]
  exact div_nonneg (h0.symm.le.trans h1) (ab0_nonneg hf)

/-- C42, locality: two SEDs that agree on the grid points bracketing the filter have the same flux. -/
theorem C42_local {wave f g : Fin (n + 2) → ℝ} (hw : StrictMono wave) (fw ft : Fin (m + 1) → ℝ)
    {lo hi : Fin (n + 2)} (hlo : ∀ i, wave lo ≤ fw i) (hhi : ∀ i, fw i < wave hi)
    (h : ∀ j, lo ≤ j → j ≤ hi → f j = g j) :
    calc_rest_flux wave f fw ft = calc_rest_flux wave g fw ft := by
  unfold calc_rest_flux rest_flux_ssp
  simp only [fun i => interp0_congr hw (hlo i) (hhi i) h]

/-- C42: where the SED grid ends inside the filter, the missing part contributes nothing: the flux equals that of the
filter with its transmission set to zero outside the grid. -/
theorem C42_no_extrapolation {wave : Fin (n + 2) → ℝ} (hw : Monotone wave) (f : Fin (n + 2) → ℝ)
    (fw ft : Fin (m + 1) → ℝ) :
    rest_flux_ssp wave f fw ft
      = rest_flux_ssp wave f fw
          (fun i => if wave 0 ≤ fw i ∧ fw i ≤ wave (Fin.last (n + 1)) then ft i else 0) := by
  unfold rest_flux_ssp
  simp only
  congr 1; funext i
  split_ifs with h
  · rfl
  · rcases lt_or_ge (fw i) (wave 0) with h0 | h0
    · rw [interp_of_lt hw h0]; simp
    · have h1 : wave (Fin.last (n + 1)) < fw i := by
        by_contra hc; exact h ⟨h0, not_lt.1 hc⟩
      rw [interp_of_gt h1]; simp

/-! ### C43 -/

/-- C43: at redshift zero the no-dimming magnitude is the rest-frame magnitude, and the k-corrected table at redshift
zero is the rest-frame table. -/
theorem C43_redshift_zero (wave lum : Fin (n + 2) → ℝ) (fw ft : Fin (m + 1) → ℝ)
    (lums : Fin nm → Fin na → Fin (n + 2) → ℝ) (fws fts : Fin nf → Fin (m + 1) → ℝ) :
    calc_obs_mag_no_dimming wave lum fw ft 0 = calc_rest_mag wave lum fw ft ∧
    precompute_ssp_restmags_z_kcorrect wave lums fws fts 0 = precompute_ssp_restmags wave lums fws fts := by
  have e : ∀ (lum : Fin (n + 2) → ℝ) (fw ft : Fin (m + 1) → ℝ),
      calc_obs_mag_no_dimming wave lum fw ft 0 = calc_rest_mag wave lum fw ft := by
    intro lum fw ft
    unfold calc_obs_mag_no_dimming calc_rest_mag calc_rest_flux
    simp only [obs_eq_rest_at_zero]
  refine ⟨e lum fw ft, ?_⟩
  unfold precompute_ssp_restmags_z_kcorrect precompute_ssp_restmags
  simp only [e]

/-! ### C44 -/

theorem obs_flux_blueshift {wave : Fin (n + 2) → ℝ} (lum : Fin (n + 2) → ℝ) (fw ft : Fin (m + 1) → ℝ) {z : ℝ}
    (hz : -1 < z) (hr : Resolved wave) (hr' : Resolved fun j => wave j * (1 + z)) :
    obs_flux_ssp wave lum fw ft z = rest_flux_ssp wave lum (fun i => fw i / (1 + z)) ft := by
  have hu : 0 < 1 + z := by linarith
  unfold obs_flux_ssp rest_flux_ssp
  simp only [interp0_scale hu hr hr']
  rw [trapz_scale_x, div_eq_inv_mul, ← trapz_smul]
  congr 1; funext i
  field_simp

/-- C44: observing at redshift `z` is observing at rest through the filter with wavelengths divided by `1+z`
(wavelength grids with gaps above the interpolation guard). -/
theorem C44_blueshifted_filter {wave : Fin (n + 2) → ℝ} (lum : Fin (n + 2) → ℝ) (fw ft : Fin (m + 1) → ℝ) {z : ℝ}
    (hz : -1 < z) (hr : Resolved wave) (hr' : Resolved fun j => wave j * (1 + z)) :
    calc_obs_mag_no_dimming wave lum fw ft z = calc_rest_mag wave lum (fun i => fw i / (1 + z)) ft := by
  have hu : 0 < 1 + z := by linarith
  have e : flux_ab0_at_10pc (fun i => fw i / (1 + z)) ft = flux_ab0_at_10pc fw ft := by
    unfold flux_ab0_at_10pc
    simp only
    rw [trapz_scale_x, div_eq_inv_mul, ← trapz_smul]
    congr 1; funext i
    field_simp
  unfold calc_obs_mag_no_dimming calc_rest_mag calc_rest_flux
  simp only [e, obs_flux_blueshift lum fw ft hz hr hr']

/-- For non-negative redshift the redshifted grid is resolved whenever the rest grid is. -/
theorem C44_resolved {wave : Fin (n + 2) → ℝ} {z : ℝ} (hz : 0 ≤ z) (hr : Resolved wave) :
    Resolved fun j => wave j * (1 + z) := by
  intro i
  have h := hr i
  have h0 := Dtype.interpEps_nonneg
  simp only
  nlinarith

/-! ### C45 -/

/-- C45: every entry of each precomputed table is the scalar kernel at that index. -/
theorem C45_tables (wave : Fin (n + 2) → ℝ) (lums : Fin nm → Fin na → Fin (n + 2) → ℝ)
    (fws fts : Fin nf → Fin (m + 1) → ℝ) (zs : Fin nz → ℝ) (zk Om0 w0 wa h : ℝ)
    (iz : Fin nz) (im : Fin nm) (ia : Fin na) (k : Fin nf) :
    precompute_ssp_obsmags_on_z_table wave lums fws fts zs Om0 w0 wa h iz im ia k
      = calc_obs_mag wave (lums im ia) (fws k) (fts k) (zs iz) Om0 w0 wa h ∧
    precompute_ssp_restmags wave lums fws fts im ia k = calc_rest_mag wave (lums im ia) (fws k) (fts k) ∧
    precompute_ssp_restmags_z_kcorrect wave lums fws fts zk im ia k
      = calc_obs_mag_no_dimming wave (lums im ia) (fws k) (fts k) zk :=
  ⟨rfl, rfl, rfl⟩

/-! ### C46 -/

theorem npInterp_eq {xp : Fin (n + 2) → ℝ} (hx : StrictMono xp) (fp : Fin (n + 2) → ℝ) (x : ℝ) :
    npInterp x xp fp = @interp n ⟨0, le_rfl⟩ x xp fp := by
  letI : Dtype := ⟨0, le_rfl⟩
  have hr : Resolved xp := fun i => sub_pos.2 (hx Fin.castSucc_lt_succ)
  unfold npInterp last
  split_ifs with h1 h2
  · rcases eq_or_lt_of_le h1 with h | h
    · rw [← h]; exact (interp_node hr fp (Fin.last (n + 1))).symm
    · exact (interp_of_gt h).symm
  · exact (interp_of_lt hx.monotone h2).symm
  · rw [not_le] at h1
    rw [not_lt] at h2
    have := interp_cell hr fp (interpCell xp x) (interpCell_left hx.monotone h2)
      (interpCell_right hx.monotone h1.le)
    rw [this]
    ring

theorem curve_min {c : Curve} (h : StrictMono c.wave) : c.min = c.wave 0 := by
  unfold Curve.min
  apply le_antisymm
  · exact Finset.inf'_le _ (Finset.mem_univ _)
  · rw [Finset.le_inf'_iff]; intro i _; exact h.monotone (Fin.zero_le i)

theorem curve_max {c : Curve} (h : StrictMono c.wave) : c.max = c.wave (Fin.last _) := by
  unfold Curve.max
  apply le_antisymm
  · rw [Finset.sup'_le_iff]; intro i _; exact h.monotone (Fin.le_last i)
  · exact Finset.le_sup' c.wave (Finset.mem_univ _)

theorem linspace_first' (a b : ℝ) (n : ℕ) : linspace a b n 0 = a := by
  unfold linspace; rw [if_neg (by rw [Fin.ext_iff]; simp)]; simp

theorem linspace_last' (a b : ℝ) (n : ℕ) : linspace a b n (Fin.last (n + 1)) = b := by simp [linspace]

/-- C46: the common length is `n` if requested, otherwise the length of the shortest curve. -/
theorem C46_common_length (curves : Fin (nf + 1) → Curve) (n : ℕ) :
    commonLength curves (some n) = n ∧
    (∀ i, commonLength curves none ≤ (curves i).k) ∧ ∃ i, commonLength curves none = (curves i).k := by
  refine ⟨rfl, fun i => Finset.inf'_le _ (Finset.mem_univ i), ?_⟩
  obtain ⟨i, -, h⟩ := Finset.exists_mem_eq_inf' Finset.univ_nonempty (fun i => (curves i).k)
  exact ⟨i, h⟩

/-- C46: each re-interpolated curve keeps its own end points (wavelength and transmission), has uniform
spacing, and stays within the range of the original transmission. -/
theorem C46_reinterpolation (curves : Fin (nf + 1) → Curve) (hc : ∀ i, StrictMono (curves i).wave) (n : Option ℕ)
    (i : Fin (nf + 1)) (lo hi : ℝ) (hlo : ∀ j, lo ≤ (curves i).trans j) (hhi : ∀ j, (curves i).trans j ≤ hi) :
    let r := interpolate_filter_trans_curves curves n
    r.1 i 0 = (curves i).wave 0 ∧ r.1 i (Fin.last _) = (curves i).wave (Fin.last _) ∧
    r.2 i 0 = (curves i).trans 0 ∧ r.2 i (Fin.last _) = (curves i).trans (Fin.last _) ∧
    (∀ j, lo ≤ r.2 i j ∧ r.2 i j ≤ hi) ∧
    (∀ j, r.1 i j = (curves i).wave 0 + ((curves i).wave (Fin.last _) - (curves i).wave 0)
      * ((j : ℕ) / ((commonLength curves n : ℝ) + 1))) := by
  letI : Dtype := ⟨0, le_rfl⟩
  have hr : Resolved (curves i).wave := fun k => sub_pos.2 (hc i Fin.castSucc_lt_succ)
  have e0 : linspace (curves i).min (curves i).max (commonLength curves n) 0 = (curves i).wave 0 := by
    rw [linspace_first', curve_min (hc i)]
  have e1 : linspace (curves i).min (curves i).max (commonLength curves n) (Fin.last _)
      = (curves i).wave (Fin.last _) := by
    rw [linspace_last', curve_max (hc i)]
  refine ⟨e0, e1, ?_, ?_, fun j => ?_, fun j => ?_⟩
  · show npInterp (linspace (curves i).min (curves i).max (commonLength curves n) 0) _ _ = _
    rw [e0, npInterp_eq (hc i)]; exact interp_node hr _ 0
  · show npInterp (linspace (curves i).min (curves i).max (commonLength curves n) (Fin.last _)) _ _ = _
    rw [e1, npInterp_eq (hc i)]; exact interp_node hr _ (Fin.last _)
  · show lo ≤ npInterp _ _ _ ∧ npInterp _ _ _ ≤ hi
    rw [npInterp_eq (hc i)]
    exact interp_bounds (hc i).monotone _ lo hi hlo hhi
  · show linspace _ _ _ j = _
    unfold linspace
    rw [curve_min (hc i), curve_max (hc i)]
    split_ifs with h
    · rw [h]
      have : ((commonLength curves n : ℝ) + 1) ≠ 0 := by positivity
      simp [this]
    · ring

/-- C46: the result for one curve does not depend on the other curves (for a requested length). -/
theorem C46_independent (curves curves' : Fin (nf + 1) → Curve) (k : ℕ) (i : Fin (nf + 1)) (h : curves i = curves' i) :
    (interpolate_filter_trans_curves curves (some k)).1 i = (interpolate_filter_trans_curves curves' (some k)).1 i ∧
    (interpolate_filter_trans_curves curves (some k)).2 i = (interpolate_filter_trans_curves curves' (some k)).2 i := by
  constructor
  · show linspace (curves i).min (curves i).max k = linspace (curves' i).min (curves' i).max k
    rw [h]
  · show (fun j => npInterp (linspace (curves i).min (curves i).max k j) (curves i).wave (curves i).trans)
      = (fun j => npInterp (linspace (curves' i).min (curves' i).max k j) (curves' i).wave (curves' i).trans)
    rw [h]

/-- C46: re-interpolating a curve that is already uniformly sampled, at its own length, returns it unchanged. -/
theorem C46_idempotent (curves : Fin (nf + 1) → Curve) (i : Fin (nf + 1)) (hc : StrictMono (curves i).wave)
    (hu : ∀ j, (curves i).wave j = (curves i).wave 0 + ((curves i).wave (Fin.last _) - (curves i).wave 0)
      * ((j : ℕ) / (((curves i).k : ℝ) + 1))) :
    (interpolate_filter_trans_curves curves (some (curves i).k)).1 i = (curves i).wave ∧
    (interpolate_filter_trans_curves curves (some (curves i).k)).2 i = (curves i).trans := by
  letI : Dtype := ⟨0, le_rfl⟩
  have hr : Resolved (curves i).wave := fun k => sub_pos.2 (hc Fin.castSucc_lt_succ)
  have e : linspace (curves i).min (curves i).max (curves i).k = (curves i).wave := by
    funext j
    unfold linspace
    rw [curve_min hc, curve_max hc]
    split_ifs with h
    · rw [h]
    · rw [hu j]; ring
  refine ⟨e, ?_⟩
  show (fun j => npInterp (linspace (curves i).min (curves i).max (curves i).k j) _ _) = _
  rw [e]; funext j
  rw [npInterp_eq hc]; exact interp_node hr _ j

example : StrictMono (![4000, 5000, (6000 : ℝ)] : Fin 3 → ℝ) := by
  rw [Fin.strictMono_iff_lt_succ]; intro i; fin_cases i <;> simp <;> norm_num

/-! ### C48, observed magnitudes -/

/-- C48: the apparent magnitude is the no-dimming magnitude plus distance modulus minus `2.5 log10(1+z)`. -/
theorem C48_obs_mag (wave lum : Fin (n + 2) → ℝ) (fw ft : Fin (m + 1) → ℝ) (z Om0 w0 wa h : ℝ) :
    calc_obs_mag wave lum fw ft z Om0 w0 wa h
      = calc_obs_mag_no_dimming wave lum fw ft z + distance_modulus_to_z z Om0 w0 wa h
        - 2.5 * Real.logb 10 (1 + z) := by
  unfold calc_obs_mag calc_obs_mag_no_dimming cosmological_dimming log10
  simp only
  ring

/-- C48: equivalently, it is `-2.5 log10` of the band flux ratio times `(1+z)` over the square of the luminosity
distance in units of 10 pc: the inverse-square law with one bandwidth factor `1+z`. -/
theorem C48_inverse_square_law (wave lum : Fin (n + 2) → ℝ) (fw ft : Fin (m + 1) → ℝ) {z Om0 h : ℝ} (w0 wa : ℝ)
    (hz : 0 < z) (hO : PhysicalOm Om0) (hh : 0 < h)
    (hflux : 0 < obs_flux_ssp wave lum fw ft z / flux_ab0_at_10pc fw ft) :
    calc_obs_mag wave lum fw ft z Om0 w0 wa h
      = -2.5 * Real.logb 10 ((1 + z) * (obs_flux_ssp wave lum fw ft z / flux_ab0_at_10pc fw ft)
          / (luminosity_distance_to_z z Om0 w0 wa h / (10 / 10 ^ 6)) ^ 2) := by
  have hd := (C49_positive hz hO hh w0 wa).2.1
  have hd' : 0 < luminosity_distance_to_z z Om0 w0 wa h / (10 / 10 ^ 6) := by positivity
  rw [C48_obs_mag, C48_distance_modulus]
  unfold calc_obs_mag_no_dimming log10
  simp only
  have hu : 0 < 1 + z := by linarith
  generalize obs_flux_ssp wave lum fw ft z / flux_ab0_at_10pc fw ft = F at *
  generalize luminosity_distance_to_z z Om0 w0 wa h / (10 / 10 ^ 6) = D at *
  rw [Real.logb_div (by positivity) (by positivity), Real.logb_mul hu.ne' hflux.ne', Real.logb_pow]
  norm_num
  ring

/-- C48: dimming from a table of distance moduli agrees with direct dimming at the table's redshifts. -/
theorem C48_dimming_from_table {zt : Fin (n + 2) → ℝ} (hr : Resolved zt) (Om0 w0 wa h : ℝ) (i : Fin (n + 2)) :
    cosmological_dimming_from_table (zt i) zt (distance_modulus zt Om0 w0 wa h)
      = cosmological_dimming (zt i) Om0 w0 wa h := by
  unfold cosmological_dimming_from_table cosmological_dimming
  rw [interp_node hr]; rfl

end Dsps.Props

namespace Dsps.Props
open Jnp Dsps.Utils Dsps.Photometry Dsps.FlatWcdm Dsps.Lemmas Spec

/-! ## The theorems applied to one spectrum (1000, 4500 and 30000 Å) and one filter (4000 to 6000 Å) at redshift 1/2 -/

section
attribute [local instance] Dtype.float64

/-- wavelengths of the spectrum -/
noncomputable def caseWave : Fin 3 → ℝ := ![1000, 4500, 30000]
/-- luminosities -/
noncomputable def caseLum : Fin 3 → ℝ := ![1, 3, 2]
/-- wavelengths of the filter -/
noncomputable def caseFW : Fin 3 → ℝ := ![4000, 5000, 6000]
/-- transmission -/
noncomputable def caseFT : Fin 3 → ℝ := ![0, 1, 0]

theorem caseWave_mono : StrictMono caseWave := Case.sm3 (by norm_num) (by norm_num)
theorem caseWave_resolved : Resolved (n := 1) caseWave := by
  intro i; show (2:ℝ)⁻¹ ^ 104 < _; fin_cases i <;> simp [caseWave] <;> norm_num
theorem case_good : GoodFilter (m := 2) caseFW caseFT :=
  ⟨(Case.sm3 (by norm_num) (by norm_num)).monotone, Case.all3 (by norm_num) (by norm_num) (by norm_num),
    Case.all3 (by norm_num) (by norm_num) (by norm_num)⟩
theorem case_ab : 0 < flux_ab0_at_10pc (m := 2) caseFW caseFT := by
  unfold flux_ab0_at_10pc AB0; simp only; rw [trapz_eq]; simp [Fin.sum_univ_succ, caseFW, caseFT]; norm_num
theorem case_cover : ∀ i, caseWave 0 ≤ caseFW i ∧ caseFW i ≤ caseWave (Fin.last 2) := by
  intro i; fin_cases i <;> norm_num [caseWave, caseFW, Fin.last]
theorem case_cover_z : ∀ i, caseWave 0 * (1 + 1 / 2) ≤ caseFW i ∧ caseFW i ≤ caseWave (Fin.last 2) * (1 + 1 / 2) := by
  intro i; fin_cases i <;> norm_num [caseWave, caseFW, Fin.last]
theorem case_flux : 0 < calc_rest_flux (n := 1) (m := 2) caseWave caseLum caseFW caseFT := by
  have h := (C42_monotone (n := 1) (m := 2) caseWave_mono.monotone case_good (z := 0) (by norm_num)
    (f := fun _ => 1 * 1.13492e-13) (g := caseLum) (by intro i; fin_cases i <;> norm_num [caseLum]) 0.3 (-1) 0 0.7).1
  rw [(C40_ab_zero_point_rest (n := 1) (m := 2) caseWave_mono.monotone caseFW caseFT (c := 1) case_ab.ne' case_cover).1] at h
  linarith
theorem case_obs_flux : 0 < obs_flux_ssp (n := 1) (m := 2) caseWave caseLum caseFW caseFT (1 / 2)
    / flux_ab0_at_10pc caseFW caseFT := by
  have hm : Monotone fun j => caseWave j * (1 + 1 / 2) := fun i j h => by
    have := caseWave_mono.monotone h; show _ * _ ≤ _ * _; linarith
  have h := (C42_monotone (n := 1) (m := 2) hm case_good (z := 0) (by norm_num)
    (f := fun _ => 1 * 1.13492e-13) (g := caseLum) (by intro i; fin_cases i <;> norm_num [caseLum]) 0.3 (-1) 0 0.7).1
  rw [(C40_ab_zero_point_rest (n := 1) (m := 2) hm caseFW caseFT (c := 1) case_ab.ne' case_cover_z).1] at h
  exact lt_of_lt_of_le one_pos h

/-- C39 applied -/
example := C39_pogson (n := 1) (m := 2) caseWave caseLum caseFW caseFT (1 / 2) 0.3 (-1) 0 0.7 (c := 4) (by norm_num) case_obs_flux
example := C39_pogson_rest (n := 1) (m := 2) caseWave caseLum caseFW caseFT (c := 4) (by norm_num) case_flux
example := C39_flux_from_mag (n := 1) (m := 2) caseWave caseLum caseFW caseFT case_flux
/-- C40 applied -/
example := C40_ab_zero_point (n := 1) (m := 2) caseWave_mono.monotone caseFW caseFT (z := 1 / 2) (c := 100) (by norm_num) case_ab.ne'
  case_cover_z
example := C40_ab_zero_point_rest (n := 1) (m := 2) caseWave_mono.monotone caseFW caseFT (c := 100) case_ab.ne' case_cover
/-- C41 applied -/
example := C41_filter_normalisation (n := 1) (m := 2) caseWave caseLum caseFW caseFT (1 / 2) 0.3 (-1) 0 0.7 (c := 3) (by norm_num)
/-- C42 applied -/
example := C42_monotone (n := 1) (m := 2) caseWave_mono.monotone case_good (z := 1 / 2) (by norm_num)
  (f := caseLum) (g := ![1, 4, 2]) (by intro i; fin_cases i <;> norm_num [caseLum]) 0.3 (-1) 0 0.7
example := C42_nonnegative (n := 1) (m := 2) caseWave_mono.monotone case_good (f := caseLum)
  (by intro i; fin_cases i <;> norm_num [caseLum])
example := C42_local (n := 2) (m := 2) (f := ![1, 3, 2, 5]) (g := ![1, 3, 2, 7])
  (Case.sm4 (a := 1000) (b := 4500) (c := 30000) (d := 40000) (by norm_num) (by norm_num) (by norm_num)) caseFW caseFT (lo := 0)
  (hi := 2) (by intro i; fin_cases i <;> norm_num [caseFW]) (by intro i; fin_cases i <;> simp [caseFW] <;> norm_num)
  (by intro j _ hj; fin_cases j <;> first | rfl | (exact absurd hj (by decide)))
example := C42_no_extrapolation (n := 1) (m := 2) caseWave_mono.monotone caseLum caseFW caseFT
/-- C44 applied -/
example := C44_blueshifted_filter (n := 1) (m := 2) caseLum caseFW caseFT (z := 1 / 2) (by norm_num) caseWave_resolved
  (C44_resolved (n := 1) (by norm_num) caseWave_resolved)
/-- C46 applied: two curves of different lengths -/
example := C46_reinterpolation (nf := 1) ![⟨1, caseFW, caseFT⟩, ⟨0, ![1, 2], ![0, 1]⟩]
  (by intro i; fin_cases i; exacts [Case.sm3 (by norm_num) (by norm_num), Case.sm2 (by norm_num)]) none 0 0 1
  (fun j => case_good.2.2 j) (Case.all3 (p := fun x => x ≤ 1) (by norm_num) (by norm_num) (by norm_num))
example := C46_independent (nf := 1) ![⟨1, caseFW, caseFT⟩, ⟨0, ![1, 2], ![0, 1]⟩] ![⟨1, caseFW, caseFT⟩, ⟨0, ![3, 4], ![0, 1]⟩] 5 0 rfl
example := C46_idempotent (nf := 1) ![⟨1, caseFW, caseFT⟩, ⟨0, ![1, 2], ![0, 1]⟩] 0 (Case.sm3 (by norm_num) (by norm_num))
  (by show ∀ j : Fin 3, caseFW j = caseFW 0 + (caseFW (Fin.last 2) - caseFW 0) * ((j : ℕ) / (((1 : ℕ) : ℝ) + 1))
      intro j; fin_cases j <;> norm_num [caseFW, Fin.last])
/-- C48 applied -/
example := C48_inverse_square_law (n := 1) (m := 2) caseWave caseLum caseFW caseFT (z := 1 / 2) (Om0 := 0.3) (h := 0.7) (-1) 0
  (by norm_num) ⟨by norm_num, by norm_num⟩ (by norm_num) case_obs_flux
example := C48_dimming_from_table (n := 1) (zt := ![0.1, 0.5, 2])
  (by intro i; show (2:ℝ)⁻¹ ^ 104 < _; fin_cases i <;> simp <;> norm_num) 0.3 (-1) 0 0.7 1
end

end Dsps.Props
