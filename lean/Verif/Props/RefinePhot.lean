import Verif.Props.RefineSed
import Verif.Props.Photometry

/-! C141: magnitudes computed from tabulated spectra and filters converge to those of the spectrum and the filter themselves when the wavelength grids
are refined (`/repo/dsps/photometry/photometry_kernels.py`), and so do magnitudes computed from tabulated histories. -/
namespace Dsps.Props
open Dsps.Utils Dsps.Lemmas Dsps.Photometry Dsps.FlatWcdm Jnp Spec Set Filter Topology
open scoped BigOperators

variable {L Tr : ℝ → ℝ} {a b c d z : ℝ}

/-! **Specification.** bands and magnitudes of functions of wavelength -/
namespace Band
/-- the integral of the spectrum, seen at redshift `z`, through the filter: `∫ T(λ) L(λ/(1+z)) dλ/λ` over the band `[a, b]` -/
noncomputable def flux (L Tr : ℝ → ℝ) (a b z : ℝ) : ℝ := ∫ x in a..b, Tr x * L (x / (1 + z)) / x
/-- the same for the package's AB reference luminosity -/
noncomputable def ab (Tr : ℝ → ℝ) (a b : ℝ) : ℝ := ∫ x in a..b, Tr x * 1.13492e-13 / x
/-- magnitude at redshift `z` without dimming by distance -/
noncomputable def mag (L Tr : ℝ → ℝ) (a b z : ℝ) : ℝ := -2.5 * Real.logb 10 (flux L Tr a b z / ab Tr a b)

/-- increasing grids from `a` to `b` with no gap wider than `δ` -/
def Fine (a b δ : ℝ) : Set (Σ n : ℕ, Fin (n + 2) → ℝ) :=
  {x | Monotone x.2 ∧ x.2 0 = a ∧ x.2 (Fin.last (x.1 + 1)) = b ∧ ∀ i : Fin (x.1 + 1), x.2 i.succ - x.2 i.castSucc ≤ δ}

/-- refinement of the grid -/
def refine (a b : ℝ) : Filter (Σ n : ℕ, Fin (n + 2) → ℝ) := ⨅ δ ∈ Ioi (0:ℝ), 𝓟 (Fine a b δ)
end Band

lemma Band.refine_basis (a b : ℝ) : (Band.refine a b).HasBasis (fun δ : ℝ => 0 < δ) (Band.Fine a b) := by
  refine hasBasis_biInf_principal (s := Band.Fine a b) (S := Ioi (0:ℝ)) ?_ ⟨1, by norm_num⟩
  intro p hp q hq
  refine ⟨min p q, mem_Ioi.mpr (lt_min hp hq), ?_, ?_⟩
  · exact fun x hx => ⟨hx.1, hx.2.1, hx.2.2.1, fun i => (hx.2.2.2 i).trans (min_le_left _ _)⟩
  · exact fun x hx => ⟨hx.1, hx.2.1, hx.2.2.1, fun i => (hx.2.2.2 i).trans (min_le_right _ _)⟩

lemma Band.mem {δ : ℝ} {x : Σ n : ℕ, Fin (n + 2) → ℝ} (h : x ∈ Band.Fine a b δ) (i) : x.2 i ∈ Icc a b :=
  ⟨h.2.1 ▸ h.1 (Fin.zero_le i), h.2.2.1 ▸ h.1 (Fin.le_last i)⟩

/-- uniform continuity on a closed interval -/
lemma modulus {f : ℝ → ℝ} (hf : ContinuousOn f (Icc a b)) {ε : ℝ} (hε : 0 < ε) :
    ∃ δ > 0, ∀ x ∈ Icc a b, ∀ y ∈ Icc a b, |x - y| ≤ δ → |f x - f y| ≤ ε := by
  have hu := isCompact_Icc.uniformContinuousOn_of_continuous hf
  rw [Metric.uniformContinuousOn_iff_le] at hu
  obtain ⟨δ, hδ, h⟩ := hu ε hε
  exact ⟨δ, hδ, fun x hx y hy hxy => h x hx y hy hxy⟩

/-- trapezoid rule against the integral -/
lemma trapz_modulus {n : ℕ} {f : ℝ → ℝ} {ω : ℝ} {x : Fin (n + 1) → ℝ} (hx : Monotone x) (hf : ContinuousOn f (Icc (x 0) (x (Fin.last n))))
    (hω : ∀ i : Fin n, ∀ y ∈ Icc (x i.castSucc) (x i.succ), |f y - f (x i.castSucc)| ≤ ω ∧ |f y - f (x i.succ)| ≤ ω) :
    |trapz x (fun i => f (x i)) - ∫ y in x 0..x (Fin.last n), f y| ≤ ω * (x (Fin.last n) - x 0) := by
  have hle : ∀ i : Fin n, x i.castSucc ≤ x i.succ := fun i => hx (Fin.castSucc_lt_succ).le
  have hsub : ∀ i : Fin n, Icc (x i.castSucc) (x i.succ) ⊆ Icc (x 0) (x (Fin.last n)) := fun i =>
    Icc_subset_Icc (hx (Fin.zero_le _)) (hx (Fin.le_last _))
  rw [← sum_cells (f := f) x (fun i => ((hf.mono (hsub i)).mono (by rw [uIcc_of_le (hle i)])).intervalIntegrable), trapz_eq, ← Finset.sum_sub_distrib]
  refine (Finset.abs_sum_le_sum_abs _ _).trans ?_
  have e : ω * (x (Fin.last n) - x 0) = ∑ i : Fin n, ω * (x i.succ - x i.castSucc) := by
    rw [← Finset.mul_sum, sum_telescope x]
  rw [e]
  refine Finset.sum_le_sum fun i _ => ?_
  have := cell_modulus (hle i) (hf.mono (hsub i)) (hω i)
  unfold trapezoidArea at this
  convert this using 3

/-- C141: **quadrature**: the trapezoid rule over grids from `a` to `b` tends to the integral of every continuous function. -/
theorem C141_trapz_converges {f : ℝ → ℝ} (hab : a ≤ b) (hf : ContinuousOn f (Icc a b)) :
    Tendsto (fun x : Σ n : ℕ, Fin (n + 2) → ℝ => trapz x.2 (fun i => f (x.2 i))) (Band.refine a b) (𝓝 (∫ x in a..b, f x)) := by
  rw [(Band.refine_basis a b).tendsto_iff Metric.nhds_basis_closedBall]
  intro ε hε
  have hp : 0 < b - a + 1 := by linarith
  obtain ⟨δ, hδ, h⟩ := modulus hf (div_pos hε hp)
  refine ⟨δ, hδ, fun x hx => ?_⟩
  rw [Metric.mem_closedBall, Real.dist_eq]
  have hm := Band.mem hx
  obtain ⟨h1, h2, h3, h4⟩ := hx
  have := trapz_modulus (ω := ε / (b - a + 1)) h1 (by rw [h2, h3]; exact hf) (by
    intro i y hy
    have hy' : y ∈ Icc a b := ⟨(hm i.castSucc).1.trans hy.1, hy.2.trans (hm i.succ).2⟩
    have := h4 i
    exact ⟨h _ hy' _ (hm _) (by rw [abs_le]; constructor <;> linarith [hy.1, hy.2]), h _ hy' _ (hm _) (by rw [abs_le]; constructor <;> linarith [hy.1, hy.2])⟩)
  rw [h2, h3] at this
  refine this.trans ?_
  rw [div_mul_eq_mul_div, div_le_iff₀ hp]
  nlinarith

/-- a tabulated spectrum interpolated is close to the spectrum -/
lemma interp_wave_near [Dtype] {n : ℕ} {w : Fin (n + 2) → ℝ} {ω δ x : ℝ} (hz : -1 < z) (hm : Monotone w) (hgap : ∀ i : Fin (n + 1), w i.succ - w i.castSucc ≤ δ)
    (hω : ∀ x ∈ Icc (w 0) (w (Fin.last (n + 1))), ∀ y ∈ Icc (w 0) (w (Fin.last (n + 1))), |x - y| ≤ δ → |L x - L y| ≤ ω)
    (hx : x / (1 + z) ∈ Icc (w 0) (w (Fin.last (n + 1)))) :
    |interpLR x (fun j => w j * (1 + z)) (fun j => L (w j)) 0 0 - L (x / (1 + z))| ≤ ω := by
  have h1 : 0 < 1 + z := by linarith
  have hl : Monotone fun j => w j * (1 + z) := fun i j h => mul_le_mul_of_nonneg_right (hm h) h1.le
  have q0 : w 0 * (1 + z) ≤ x := (le_div_iff₀ h1).mp hx.1
  have q1 : x ≤ w (Fin.last (n + 1)) * (1 + z) := (div_le_iff₀ h1).mp hx.2
  have e : interpLR x (fun j => w j * (1 + z)) (fun j => L (w j)) 0 0 = _ := interp_of_mem (xp := fun j => w j * (1 + z)) q0 q1
  obtain ⟨s, s0, s1, hc⟩ := interpBody_convex hl (x := x) q0 q1
  have c0 := interpCell_left hl (x := x) q0
  have c1 := interpCell_right hl (x := x) q1
  rw [e, hc]
  generalize interpCell (fun j => w j * (1 + z)) x = i at *
  have d0 : w i.castSucc ≤ x / (1 + z) := (le_div_iff₀ h1).mpr c0
  have d1 : x / (1 + z) ≤ w i.succ := (div_le_iff₀ h1).mpr c1
  have g := hgap i
  have u0 := abs_le.mp (hω _ ⟨hm (Fin.zero_le _), hm (Fin.le_last i.castSucc)⟩ _ hx (by rw [abs_le]; constructor <;> linarith))
  have u1 := abs_le.mp (hω _ ⟨hm (Fin.zero_le _), hm (Fin.le_last i.succ)⟩ _ hx (by rw [abs_le]; constructor <;> linarith))
  rw [abs_le]
  constructor <;> nlinarith [u0.1, u0.2, u1.1, u1.2]

/-- difference of two trapezoid sums -/
lemma trapz_diff {n : ℕ} {x y y' : Fin (n + 1) → ℝ} {ω : ℝ} (hx : Monotone x) (h : ∀ i, |y i - y' i| ≤ ω) :
    |trapz x y - trapz x y'| ≤ ω * (x (Fin.last n) - x 0) := by
  rw [trapz_eq, trapz_eq, ← Finset.sum_sub_distrib]
  refine (Finset.abs_sum_le_sum_abs _ _).trans ?_
  have e : ω * (x (Fin.last n) - x 0) = ∑ i : Fin n, ω * (x i.succ - x i.castSucc) := by
    rw [← Finset.mul_sum, sum_telescope x]
  rw [e]
  refine Finset.sum_le_sum fun i _ => ?_
  have hp := sub_nonneg.mpr (hx (Fin.castSucc_lt_succ (i := i)).le)
  have h0 := abs_le.mp (h i.castSucc)
  have h1 := abs_le.mp (h i.succ)
  rw [abs_le]
  constructor <;> nlinarith [h0.1, h0.2, h1.1, h1.2]

/-- the band `[a, b]`, seen from redshift `z`, lies in the wavelength range `[c, d]` of the spectrum -/
def Covered (a b c d z : ℝ) : Prop := 0 < a ∧ a ≤ b ∧ -1 < z ∧ c ≤ a / (1 + z) ∧ b / (1 + z) ≤ d

lemma Covered.mem (h : Covered a b c d z) {x : ℝ} (hx : x ∈ Icc a b) : x / (1 + z) ∈ Icc c d := by
  obtain ⟨h0, h1, h2, h3, h4⟩ := h
  have hz : 0 < 1 + z := by linarith
  exact ⟨h3.trans (div_le_div_of_nonneg_right hx.1 hz.le), (div_le_div_of_nonneg_right hx.2 hz.le).trans h4⟩

/-- C141: **flux through a filter**: for every continuous spectrum and transmission curve the observed flux computed from their values on wavelength
grids tends to `∫ T(λ) L(λ/(1+z)) dλ/λ` when both grids are refined, independently of each other. -/
theorem C141_flux_converges [Dtype] (hc : Covered a b c d z) (hL : ContinuousOn L (Icc c d)) (hT : ContinuousOn Tr (Icc a b)) :
    Tendsto (fun x : (Σ n : ℕ, Fin (n + 2) → ℝ) × (Σ n : ℕ, Fin (n + 2) → ℝ) =>
      obs_flux_ssp x.1.2 (fun j => L (x.1.2 j)) x.2.2 (fun i => Tr (x.2.2 i)) z) (Band.refine c d ×ˢ Band.refine a b) (𝓝 (Band.flux L Tr a b z)) := by
  have hz : 0 < 1 + z := by linarith [hc.2.2.1]
  have hab := hc.2.1
  have hG : ContinuousOn (fun x => Tr x * L (x / (1 + z)) / x) (Icc a b) := by
    refine (hT.mul (hL.comp (by fun_prop) fun x hx => hc.mem hx)).div continuousOn_id fun x hx => ?_
    exact (lt_of_lt_of_le hc.1 hx.1).ne'
  have hq := (C141_trapz_converges hab hG).comp (tendsto_snd (f := Band.refine c d) (g := Band.refine a b))
  obtain ⟨K, hK⟩ : ∃ K, ∀ x ∈ Icc a b, |Tr x / x| ≤ K := by
    obtain ⟨y, _, h⟩ := isCompact_Icc.exists_isMaxOn (nonempty_Icc.mpr hab)
      ((hT.div continuousOn_id fun x hx => (lt_of_lt_of_le hc.1 hx.1).ne').abs)
    exact ⟨_, fun x hx => h hx⟩
  have hK0 : 0 ≤ K := (abs_nonneg _).trans (hK a ⟨le_rfl, hab⟩)
  have hd : Tendsto (fun x : (Σ n : ℕ, Fin (n + 2) → ℝ) × (Σ n : ℕ, Fin (n + 2) → ℝ) =>
      obs_flux_ssp x.1.2 (fun j => L (x.1.2 j)) x.2.2 (fun i => Tr (x.2.2 i)) z - trapz x.2.2 (fun i => Tr (x.2.2 i) * L (x.2.2 i / (1 + z)) / x.2.2 i))
      (Band.refine c d ×ˢ Band.refine a b) (𝓝 0) := by
    rw [((Band.refine_basis c d).prod (Band.refine_basis a b)).tendsto_iff Metric.nhds_basis_closedBall]
    intro ε hε
    have hp : 0 < (K + 1) * (b - a + 1) := by have := sub_nonneg.mpr hab; positivity
    obtain ⟨δ, hδ, h⟩ := modulus hL (div_pos hε hp)
    refine ⟨(δ, 1), ⟨hδ, one_pos⟩, fun x hx => ?_⟩
    obtain ⟨⟨w1, w2, w3, w4⟩, hf⟩ := hx
    have hm := Band.mem hf
    obtain ⟨f1, f2, f3, f4⟩ := hf
    rw [Metric.mem_closedBall, Real.dist_eq, sub_zero]
    unfold obs_flux_ssp
    refine (trapz_diff (ω := K * (ε / ((K + 1) * (b - a + 1)))) f1 fun i => ?_).trans ?_
    · have hi := interp_wave_near (L := L) (x := x.2.2 i) (ω := ε / ((K + 1) * (b - a + 1))) hc.2.2.1 w1 w4 (by rw [w2, w3]; exact h) (by rw [w2, w3]; exact hc.mem (hm i))
      have e : ∀ T l l' x : ℝ, T * l / x - T * l' / x = T / x * (l - l') := by intros; ring
      rw [e, abs_mul]
      exact mul_le_mul (hK _ (hm i)) hi (abs_nonneg _) hK0
    · rw [f2, f3]
      have hba := sub_nonneg.mpr hab
      have e : K * (ε / ((K + 1) * (b - a + 1))) * (b - a) = ε * ((K / (K + 1)) * ((b - a) / (b - a + 1))) := by field_simp
      rw [e]
      have k1 : K / (K + 1) ≤ 1 := div_le_one_of_le₀ (by linarith) (by linarith)
      have k2 : (b - a) / (b - a + 1) ≤ 1 := div_le_one_of_le₀ (by linarith) (by linarith)
      have k3 : 0 ≤ (b - a) / (b - a + 1) := div_nonneg hba (by linarith)
      have : (K / (K + 1)) * ((b - a) / (b - a + 1)) ≤ 1 * 1 := mul_le_mul k1 k2 k3 one_pos.le
      nlinarith
  have := hd.add hq
  simpa [Function.comp_def, Band.flux] using this

/-- C141: **AB reference flux** -/
theorem C141_ab_converges (ha : 0 < a) (hab : a ≤ b) (hT : ContinuousOn Tr (Icc a b)) :
    Tendsto (fun x : Σ n : ℕ, Fin (n + 2) → ℝ => flux_ab0_at_10pc x.2 (fun i => Tr (x.2 i))) (Band.refine a b) (𝓝 (Band.ab Tr a b)) :=
  C141_trapz_converges (f := fun x => Tr x * AB0 / x) hab ((hT.mul continuousOn_const).div continuousOn_id fun _ hx => (lt_of_lt_of_le ha hx.1).ne')

/-- refinement of wavelength and filter grids, in words -/
lemma refine2_tendsto {g : (Σ n : ℕ, Fin (n + 2) → ℝ) × (Σ n : ℕ, Fin (n + 2) → ℝ) → ℝ} {y : ℝ}
    (h : Tendsto g (Band.refine c d ×ˢ Band.refine a b) (𝓝 y)) {ε : ℝ} (hε : 0 < ε) :
    ∃ δ > 0, ∀ x ∈ Band.Fine c d δ, ∀ f ∈ Band.Fine a b δ, |g (x, f) - y| ≤ ε := by
  rw [((Band.refine_basis c d).prod (Band.refine_basis a b)).tendsto_iff Metric.nhds_basis_closedBall] at h
  obtain ⟨⟨δ, δ'⟩, ⟨h1, h2⟩, h⟩ := h ε hε
  refine ⟨min δ δ', lt_min h1 h2, fun x hx f hf => h (x, f) ⟨?_, ?_⟩⟩
  · exact ⟨hx.1, hx.2.1, hx.2.2.1, fun i => (hx.2.2.2 i).trans (min_le_left _ _)⟩
  · exact ⟨hf.1, hf.2.1, hf.2.2.1, fun i => (hf.2.2.2 i).trans (min_le_right _ _)⟩

lemma mag_tendsto [Dtype] (hc : Covered a b c d z) (hL : ContinuousOn L (Icc c d)) (hT : ContinuousOn Tr (Icc a b)) (hf : Band.flux L Tr a b z ≠ 0)
    (hab : Band.ab Tr a b ≠ 0) :
    Tendsto (fun x : (Σ n : ℕ, Fin (n + 2) → ℝ) × (Σ n : ℕ, Fin (n + 2) → ℝ) =>
      calc_obs_mag_no_dimming x.1.2 (fun j => L (x.1.2 j)) x.2.2 (fun i => Tr (x.2.2 i)) z) (Band.refine c d ×ˢ Band.refine a b) (𝓝 (Band.mag L Tr a b z)) := by
  have h1 := (C141_flux_converges hc hL hT).div ((C141_ab_converges hc.1 hc.2.1 hT).comp (tendsto_snd (f := Band.refine c d) (g := Band.refine a b))) hab
  exact (((Real.continuousAt_log (div_ne_zero hf hab)).tendsto.comp h1).div_const (Real.log 10)).const_mul (-2.5)

/-- C141: **observed magnitudes**: apparent magnitudes computed from a continuous spectrum and transmission curve on wavelength grids tend to the
magnitude of the spectrum through the transmission curve at that redshift. -/
theorem C141_obs_mag_converges [Dtype] (hc : Covered a b c d z) (hL : ContinuousOn L (Icc c d)) (hT : ContinuousOn Tr (Icc a b))
    (hf : Band.flux L Tr a b z ≠ 0) (hab : Band.ab Tr a b ≠ 0) (Om0 w0 wa h : ℝ) {ε : ℝ} (hε : 0 < ε) :
    ∃ δ > 0, ∀ x ∈ Band.Fine c d δ, ∀ f ∈ Band.Fine a b δ,
      |calc_obs_mag x.2 (fun j => L (x.2 j)) f.2 (fun i => Tr (f.2 i)) z Om0 w0 wa h -
        (Band.mag L Tr a b z + (distance_modulus_to_z z Om0 w0 wa h - 2.5 * Real.logb 10 (1 + z)))| ≤ ε := by
  obtain ⟨δ, hδ, h⟩ := refine2_tendsto (mag_tendsto hc hL hT hf hab) hε
  refine ⟨δ, hδ, fun x hx f hf => ?_⟩
  have := h x hx f hf
  unfold calc_obs_mag cosmological_dimming
  unfold calc_obs_mag_no_dimming at this
  simp only [Jnp.log10] at this ⊢
  rwa [show ∀ p q r : ℝ, p + q - (r + q) = p - r by intros; ring]

/-- C141: **rest-frame magnitudes** -/
theorem C141_rest_mag_converges [Dtype] (hc : Covered a b c d 0) (hL : ContinuousOn L (Icc c d)) (hT : ContinuousOn Tr (Icc a b))
    (hf : Band.flux L Tr a b 0 ≠ 0) (hab : Band.ab Tr a b ≠ 0) {ε : ℝ} (hε : 0 < ε) :
    ∃ δ > 0, ∀ x ∈ Band.Fine c d δ, ∀ f ∈ Band.Fine a b δ,
      |calc_rest_mag x.2 (fun j => L (x.2 j)) f.2 (fun i => Tr (f.2 i)) - Band.mag L Tr a b 0| ≤ ε := by
  obtain ⟨δ, hδ, h⟩ := refine2_tendsto (mag_tendsto hc hL hT hf hab) hε
  refine ⟨δ, hδ, fun x hx f hf => ?_⟩
  have := h x hx f hf
  unfold calc_rest_mag calc_rest_flux
  unfold calc_obs_mag_no_dimming at this
  simp only at this ⊢
  rwa [← obs_eq_rest_at_zero]

/-! ## from star formation history to magnitude -/

lemma obs_flux_lin [Dtype] {n m : ℕ} (wave f g : Fin (n + 2) → ℝ) (fw ft : Fin (m + 1) → ℝ) (z p q : ℝ) :
    obs_flux_ssp wave (fun i => p * f i + q * g i) fw ft z = p * obs_flux_ssp wave f fw ft z + q * obs_flux_ssp wave g fw ft z := by
  unfold obs_flux_ssp
  simp only [interp0_lin]
  rw [← trapz_smul, ← trapz_smul, ← trapz_add']
  congr 1; funext i; ring

lemma obs_flux_sum [Dtype] {n m : ℕ} {ι : Type} (s : Finset ι) (K : ι → ℝ) (wave : Fin (n + 2) → ℝ) (f : ι → Fin (n + 2) → ℝ) (fw ft : Fin (m + 1) → ℝ) (z : ℝ) :
    obs_flux_ssp wave (fun l => ∑ i ∈ s, K i * f i l) fw ft z = ∑ i ∈ s, K i * obs_flux_ssp wave (f i) fw ft z := by
  classical
  induction s using Finset.induction_on with
  | empty =>
    have := obs_flux_lin wave (fun _ => 0) (fun _ => 0) fw ft z 0 0
    simpa using this
  | insert i s hi ih =>
    simp only [Finset.sum_insert hi]
    have := obs_flux_lin wave (f i) (fun l => ∑ i ∈ s, K i * f i l) fw ft z (K i) 1
    rw [one_mul, ih] at this
    rw [← this]
    congr 1; funext l; ring

lemma band_sum {ι : Type} (s : Finset ι) (K : ι → ℝ) {F : ι → ℝ → ℝ} (hc : Covered a b c d z) (hF : ∀ i, ContinuousOn (F i) (Icc c d)) (hT : ContinuousOn Tr (Icc a b)) :
    Band.flux (fun x => ∑ i ∈ s, K i * F i x) Tr a b z = ∑ i ∈ s, K i * Band.flux (F i) Tr a b z := by
  have hG : ∀ i, ContinuousOn (fun x => Tr x * F i (x / (1 + z)) / x) (Icc a b) := by
    intro i
    refine (hT.mul ((hF i).comp (by fun_prop) fun x hx => hc.mem hx)).div continuousOn_id fun x hx => ?_
    exact (lt_of_lt_of_le hc.1 hx.1).ne'
  unfold Band.flux
  simp only [← intervalIntegral.integral_const_mul]
  rw [← intervalIntegral.integral_finset_sum]
  · congr 1; funext x
    rw [Finset.mul_sum, Finset.sum_div]
    exact Finset.sum_congr rfl fun i _ => by ring
  · intro i _
    exact ((hG i).mono (by rw [uIcc_of_le hc.2.1])).intervalIntegrable.const_mul _

section
open Dsps.StellarAgeWeights Dsps.MetallicityWeights Dsps.SspWeights Sfh
variable {m k : ℕ} {S : ℝ → ℝ} {sfr_min T t_obs : ℝ} {g : Fin (m + 3) → ℝ}

/-- the spectrum of the galaxy, from SSP spectra that are functions `F i j` of wavelength -/
noncomputable def Sfh.spectrum (S : ℝ → ℝ) (sfr_min t_obs : ℝ) (birth : Fin (m + 3) → ℝ) (mdf : Fin (k + 3) → ℝ) (F : Fin (k + 3) → Fin (m + 3) → ℝ → ℝ) (x : ℝ) : ℝ :=
  mass S sfr_min t_obs * ∑ i, ∑ j, mdf i * birth j * F i j x

lemma sum_prod_form {A : Fin (k + 3) → Fin (m + 3) → ℝ} {M : ℝ} {F : Fin (k + 3) → Fin (m + 3) → ℝ} :
    M * ∑ i, ∑ j, A i j * F i j = ∑ p : Fin (k + 3) × Fin (m + 3), (M * A p.1 p.2) * F p.1 p.2 := by
  rw [Fintype.sum_prod_type, Finset.mul_sum]
  refine Finset.sum_congr rfl fun i _ => ?_
  rw [Finset.mul_sum]
  exact Finset.sum_congr rfl fun j _ => by ring

/-- C141: **the whole forward model**: from continuous star formation history, SSP spectra and transmission curve, the apparent magnitude of the galaxy
computed from a time table, a wavelength grid and a filter grid (SED from the table, then photometry) tends to the magnitude of the galaxy's spectrum
when time table, wavelength grid and filter grid are refined, independently of each other. -/
theorem C141_forward_model_converges [Dtype] {gal_lgmet scatter : ℝ} {y : Fin (k + 3) → ℝ} {F : Fin (k + 3) → Fin (m + 3) → ℝ → ℝ} (hs : 0 < sfr_min)
    (hS : ContinuousOn S (Icc 0.001 T)) (hobs : t_obs ∈ Icc 0.001 T) (he : Monotone (get_lg_age_bin_edges g)) (hpos : Populated S t_obs g)
    (hmet : ∑ i, calc_lgmet_weights_from_lognormal_mdf gal_lgmet scatter y i = 1) (hc : Covered a b c d z) (hF : ∀ i j, ContinuousOn (F i j) (Icc c d))
    (hT : ContinuousOn Tr (Icc a b)) (hab : Band.ab Tr a b ≠ 0)
    (hf : Band.flux (spectrum S sfr_min t_obs (binShare S t_obs g) (calc_lgmet_weights_from_lognormal_mdf gal_lgmet scatter y) F) Tr a b z ≠ 0)
    (Om0 w0 wa h : ℝ) {ε : ℝ} (hε : 0 < ε) :
    ∃ δ > 0, ∀ t ∈ Sfh.Fine T δ, ∀ x ∈ Band.Fine c d δ, ∀ f ∈ Band.Fine a b δ,
      |calc_obs_mag x.2 (calc_rest_sed_sfh_table_lognormal_mdf t.2 (fun i => S (t.2 i)) gal_lgmet scatter y g (fun i j l => F i j (x.2 l)) t_obs sfr_min).rest_sed
          f.2 (fun i => Tr (f.2 i)) z Om0 w0 wa h -
        (Band.mag (spectrum S sfr_min t_obs (binShare S t_obs g) (calc_lgmet_weights_from_lognormal_mdf gal_lgmet scatter y) F) Tr a b z +
          (distance_modulus_to_z z Om0 w0 wa h - 2.5 * Real.logb 10 (1 + z)))| ≤ ε := by
  set Φ := spectrum S sfr_min t_obs (binShare S t_obs g) (calc_lgmet_weights_from_lognormal_mdf gal_lgmet scatter y) F with hΦ
  have eΦ : Φ = fun x => ∑ p : Fin (k + 3) × Fin (m + 3), (mass S sfr_min t_obs * (calc_lgmet_weights_from_lognormal_mdf gal_lgmet scatter y p.1 * binShare S t_obs g p.2)) * F p.1 p.2 x := by
    funext x
    exact sum_prod_form (A := fun i j => calc_lgmet_weights_from_lognormal_mdf gal_lgmet scatter y i * binShare S t_obs g j) (F := fun i j => F i j x)
  have hflux : Tendsto (fun q : (Σ n : ℕ, Fin (n + 2) → ℝ) × ((Σ n : ℕ, Fin (n + 2) → ℝ) × (Σ n : ℕ, Fin (n + 2) → ℝ)) =>
      obs_flux_ssp q.2.1.2 (calc_rest_sed_sfh_table_lognormal_mdf q.1.2 (fun i => S (q.1.2 i)) gal_lgmet scatter y g (fun i j l => F i j (q.2.1.2 l)) t_obs sfr_min).rest_sed
        q.2.2.2 (fun i => Tr (q.2.2.2 i)) z) (Sfh.refine T ×ˢ (Band.refine c d ×ˢ Band.refine a b)) (𝓝 (Band.flux Φ Tr a b z)) := by
    rw [eΦ, band_sum (F := fun p : Fin (k + 3) × Fin (m + 3) => F p.1 p.2) _ _ hc (fun p => hF p.1 p.2) hT]
    have e : ∀ q : (Σ n : ℕ, Fin (n + 2) → ℝ) × ((Σ n : ℕ, Fin (n + 2) → ℝ) × (Σ n : ℕ, Fin (n + 2) → ℝ)),
        obs_flux_ssp q.2.1.2 (calc_rest_sed_sfh_table_lognormal_mdf q.1.2 (fun i => S (q.1.2 i)) gal_lgmet scatter y g (fun i j l => F i j (q.2.1.2 l)) t_obs sfr_min).rest_sed
          q.2.2.2 (fun i => Tr (q.2.2.2 i)) z = ∑ p : Fin (k + 3) × Fin (m + 3), (massFormed q.1.2 (fun i => S (q.1.2 i)) sfr_min t_obs *
            (calc_ssp_weights_sfh_table_lognormal_mdf q.1.2 (fun i => S (q.1.2 i)) gal_lgmet scatter y g t_obs).weights p.1 p.2) *
            obs_flux_ssp q.2.1.2 (fun l => F p.1 p.2 (q.2.1.2 l)) q.2.2.2 (fun i => Tr (q.2.2.2 i)) z := by
      intro q
      rw [← obs_flux_sum]
      congr 1; funext l
      rw [(C25_sed_formula q.1.2 (fun i => S (q.1.2 i)) (fun _ => 0) gal_lgmet scatter y g (fun i j l => F i j (q.2.1.2 l)) t_obs sfr_min l).1]
      exact sum_prod_form (F := fun i j => F i j (q.2.1.2 l))
    simp only [e]
    refine tendsto_finsetSum _ fun p _ => Tendsto.mul ?_ ?_
    · exact ((mass_tendsto hs hS hobs).mul (joint_tendsto hS hobs he hpos hmet p.1 p.2)).comp tendsto_fst
    · exact (C141_flux_converges hc (hF p.1 p.2) hT).comp tendsto_snd
  have h1 := hflux.div ((C141_ab_converges hc.1 hc.2.1 hT).comp ((tendsto_snd (f := Band.refine c d) (g := Band.refine a b)).comp (tendsto_snd (f := Sfh.refine T)))) hab
  have h2 := ((((Real.continuousAt_log (div_ne_zero hf hab)).tendsto.comp h1).div_const (Real.log 10)).const_mul (-2.5)).add_const
    (distance_modulus_to_z z Om0 w0 wa h - 2.5 * Real.logb 10 (1 + z))
  rw [((refine_basis T).prod ((Band.refine_basis c d).prod (Band.refine_basis a b))).tendsto_iff Metric.nhds_basis_closedBall] at h2
  obtain ⟨⟨δ1, δ2, δ3⟩, ⟨p1, p2, p3⟩, h3⟩ := h2 ε hε
  refine ⟨min δ1 (min δ2 δ3), lt_min p1 (lt_min p2 p3), fun t ht x hx f hf => ?_⟩
  refine h3 (t, x, f) ⟨?_, ?_, ?_⟩
  · exact ⟨ht.1, ht.2.1, ht.2.2.1, ht.2.2.2.1.trans (min_le_left _ _), fun i => (ht.2.2.2.2 i).trans (min_le_left _ _)⟩
  · exact ⟨hx.1, hx.2.1, hx.2.2.1, fun i => (hx.2.2.2 i).trans ((min_le_right _ _).trans (min_le_left _ _))⟩
  · exact ⟨hf.1, hf.2.1, hf.2.2.1, fun i => (hf.2.2.2 i).trans ((min_le_right _ _).trans (min_le_right _ _))⟩
end

/-- C141: wavelength grids as fine as wished exist. -/
theorem C141_grids_exist {δ : ℝ} (hab : a ≤ b) (hδ : 0 < δ) : ∃ x, x ∈ Band.Fine a b δ := by
  have hp := sub_nonneg.mpr hab
  obtain ⟨n, hn⟩ := exists_nat_gt ((b - a) / δ)
  have hn0 : (0:ℝ) < (n:ℝ) + 1 := by positivity
  have hstep : (b - a) / ((n:ℝ) + 1) ≤ δ := by
    rw [div_lt_iff₀ hδ] at hn
    rw [div_le_iff₀ hn0]
    nlinarith
  have hq : 0 ≤ (b - a) / ((n:ℝ) + 1) := by positivity
  refine ⟨⟨n, fun i => a + (b - a) / ((n:ℝ) + 1) * (i:ℕ)⟩, ?_, ?_, ?_, ?_⟩
  · intro i j h
    have : ((i:ℕ):ℝ) ≤ ((j:ℕ):ℝ) := by exact_mod_cast h
    simp only
    nlinarith
  · simp
  · simp only [Fin.val_last]
    push_cast
    field_simp
    ring
  · intro i
    simp only [Fin.val_succ, Fin.val_castSucc]
    push_cast
    linarith

section
open Dsps.MetallicityWeights Sfh
attribute [local instance] Dtype.float64

lemma case_covered : Covered 4000 5000 2000 10000 0.5 := ⟨by norm_num, by norm_num, by norm_num, by norm_num, by norm_num⟩
lemma case_covered0 : Covered 4000 5000 2000 10000 0 := ⟨by norm_num, by norm_num, by norm_num, by norm_num, by norm_num⟩

lemma case_band_pos {K : ℝ} (hK : 0 < K) (z : ℝ) : 0 < Band.flux (fun _ => K) (fun _ => 1) 4000 5000 z := by
  have hpos : ∀ x ∈ Icc (4000:ℝ) 5000, 0 < x := fun x hx => by linarith [hx.1]
  refine intervalIntegral.intervalIntegral_pos_of_pos_on ?_ (fun x hx => ?_) (by norm_num)
  · refine ContinuousOn.intervalIntegrable ?_
    rw [uIcc_of_le (by norm_num)]
    exact continuousOn_const.div continuousOn_id fun x hx => (hpos x hx).ne'
  · have := hpos x ⟨hx.1.le, hx.2.le⟩
    positivity

lemma case_ab_pos : 0 < Band.ab (fun _ => 1) 4000 5000 := by
  have := case_band_pos (K := 1.13492e-13) (by norm_num) 0
  simpa [Band.flux, Band.ab] using this

/-- cases: a flat spectrum (Lsun/Hz) from 2000 to 10000 Angstrom through a box filter from 4000 to 5000 Angstrom, at redshift 1/2 and 0 -/
example := C141_obs_mag_converges (L := fun _ => 1) (Tr := fun _ => 1) case_covered (by fun_prop) (by fun_prop) (case_band_pos one_pos _).ne' case_ab_pos.ne' 0.3 (-1) 0 0.7
  (ε := 1 / 100) (by norm_num)
example := C141_rest_mag_converges (L := fun _ => 1) (Tr := fun _ => 1) case_covered0 (by fun_prop) (by fun_prop) (case_band_pos one_pos _).ne' case_ab_pos.ne'
  (ε := 1 / 100) (by norm_num)

/-- case: the galaxy of C140 with that spectrum for every population -/
example := C141_forward_model_converges (m := 0) (k := 2) (S := fun x => 1 + x) (T := 13.8) (t_obs := 13) (sfr_min := 1e-14) (g := caseA) (gal_lgmet := -1) (scatter := 0.3)
  (y := caseZ) (F := fun _ _ _ => 1) (Tr := fun _ => 1) (by norm_num) (by fun_prop) ⟨by norm_num, by norm_num⟩ caseA_edges caseA_populated
  (C21_lgmet_weights_sum _ _ (by norm_num) _ (by norm_num) (by norm_num)) case_covered (by fun_prop) (by fun_prop) case_ab_pos.ne' (by
    have hm : 0 < mass (fun x => 1 + x) 1e-14 13 := by
      unfold mass
      have : 0 < ∫ x in (0.001:ℝ)..13, max 1e-14 (1 + x) :=
        intervalIntegral.intervalIntegral_pos_of_pos_on ((by fun_prop : Continuous fun x : ℝ => max 1e-14 (1 + x)).intervalIntegrable _ _)
          (fun x _ => lt_max_of_lt_left (by norm_num)) (by norm_num)
      positivity
    have e : spectrum (m := 0) (k := 2) (fun x => 1 + x) 1e-14 13 (binShare (fun x => 1 + x) 13 caseA) (calc_lgmet_weights_from_lognormal_mdf (-1) 0.3 caseZ) (fun _ _ _ => 1)
        = fun _ => mass (fun x => 1 + x) 1e-14 13 := by
      funext x
      unfold Sfh.spectrum
      simp only [mul_one]
      rw [← Finset.sum_mul_sum, share_sum caseA_populated, C21_lgmet_weights_sum _ _ (by norm_num) _ (by norm_num) (by norm_num)]
      ring
    rw [e]
    exact (case_band_pos hm _).ne') 0.3 (-1) 0 0.7 (ε := 1 / 100) (by norm_num)
end

end Dsps.Props
