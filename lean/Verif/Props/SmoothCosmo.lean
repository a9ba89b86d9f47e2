import Verif.Props.Cosmology
import Verif.Props.Photometry
import Verif.Props.NonFinitePhot
import Verif.Lemmas.InterpCont
import Mathlib.Analysis.SpecialFunctions.Pow.Deriv
import Mathlib.Analysis.SpecialFunctions.Sqrt
import Verif.Cases

/-! Properties C93 (cosmology is smooth in redshift and parameters) and C94 (continuity of photometry). -/
namespace Dsps.Props
open Dsps.Utils Dsps.Lemmas Dsps.FlatWcdm Dsps.Photometry Jnp Set Filter Topology Spec
open scoped ContDiff

variable {n m : ℕ}

section
variable {E : Type*} [NormedAddCommGroup E] [NormedSpace ℝ E] {x0 : E} {N : WithTop ℕ∞} {z O v u h : E → ℝ}

theorem Ez_contDiffAt (hz : ContDiffAt ℝ N z x0) (hO : ContDiffAt ℝ N O x0) (hv : ContDiffAt ℝ N v x0) (hu : ContDiffAt ℝ N u x0)
    (hz0 : -1 < z x0) (hO0 : PhysicalOm (O x0)) : ContDiffAt ℝ N (fun x => Ez (z x) (O x) (v x) (u x)) x0 := by
  have hp := Ez_pos hz0 hO0 (v x0) (u x0)
  have e1 : (1.0 : ℝ) = 1 := by norm_num
  unfold Ez
  refine ContDiffAt.sqrt ?_ ?_
  · refine (hO.mul ((contDiffAt_const.add hz).pow 3)).add ((contDiffAt_const.sub hO).mul ?_)
    unfold rho_de_z
    have ha : ContDiffAt ℝ N (fun x => 1.0 / (1.0 + z x)) x0 := contDiffAt_const.div (contDiffAt_const.add hz) (by rw [e1]; linarith)
    refine (ha.rpow (contDiffAt_const.mul ((contDiffAt_const.add hv).add hu)) ?_).mul
      (ContDiffAt.exp ((contDiffAt_const.mul hu).mul (contDiffAt_const.sub ha)))
    rw [e1]; exact (div_pos one_pos (by linarith)).ne'
  · intro h0
    have : Ez (z x0) (O x0) (v x0) (u x0) = 0 := by
      unfold Ez; simp only; rw [h0, Real.sqrt_zero]
    exact hp.ne' this

theorem linspace_contDiffAt (hz : ContDiffAt ℝ N z x0) (k : ℕ) (i : Fin (k + 2)) :
    ContDiffAt ℝ N (fun x => linspace 0 (z x) k i) x0 := by
  simp only [linspace_zero_eq]
  fun_prop

theorem trapz_contDiffAt {k : ℕ} {f g : E → Fin (k + 1) → ℝ} (hf : ∀ i, ContDiffAt ℝ N (fun x => f x i) x0)
    (hg : ∀ i, ContDiffAt ℝ N (fun x => g x i) x0) : ContDiffAt ℝ N (fun x => trapz (f x) (g x)) x0 := by
  simp only [trapz_eq]
  exact ContDiffAt.sum fun i _ => (((hf _).sub (hf _)).mul ((hg _).add (hg _))).div_const _

theorem comoving_contDiffAt (hz : ContDiffAt ℝ N z x0) (hO : ContDiffAt ℝ N O x0) (hv : ContDiffAt ℝ N v x0) (hu : ContDiffAt ℝ N u x0)
    (hh : ContDiffAt ℝ N h x0) (hz0 : -1 < z x0) (hO0 : PhysicalOm (O x0)) (hh0 : h x0 ≠ 0) :
    ContDiffAt ℝ N (fun x => comoving_distance_to_z (z x) (O x) (v x) (u x) (h x)) x0 := by
  unfold comoving_distance_to_z
  refine (((trapz_contDiffAt (k := 255) (linspace_contDiffAt hz 254) fun i => ?_).mul contDiffAt_const).mul contDiffAt_const).div hh hh0
  unfold integrand_oneOverEz
  exact contDiffAt_const.div (Ez_contDiffAt (linspace_contDiffAt hz 254 i) hO hv hu (linspace_gt hz0 _ _) hO0)
    (Ez_pos (linspace_gt hz0 _ _) hO0 _ _).ne'

theorem luminosity_contDiffAt (hz : ContDiffAt ℝ N z x0) (hO : ContDiffAt ℝ N O x0) (hv : ContDiffAt ℝ N v x0) (hu : ContDiffAt ℝ N u x0)
    (hh : ContDiffAt ℝ N h x0) (hz0 : -1 < z x0) (hO0 : PhysicalOm (O x0)) (hh0 : h x0 ≠ 0) :
    ContDiffAt ℝ N (fun x => luminosity_distance_to_z (z x) (O x) (v x) (u x) (h x)) x0 :=
  (comoving_contDiffAt hz hO hv hu hh hz0 hO0 hh0).mul (contDiffAt_const.add hz)

theorem angular_contDiffAt (hz : ContDiffAt ℝ N z x0) (hO : ContDiffAt ℝ N O x0) (hv : ContDiffAt ℝ N v x0) (hu : ContDiffAt ℝ N u x0)
    (hh : ContDiffAt ℝ N h x0) (hz0 : -1 < z x0) (hO0 : PhysicalOm (O x0)) (hh0 : h x0 ≠ 0) :
    ContDiffAt ℝ N (fun x => angular_diameter_distance_to_z (z x) (O x) (v x) (u x) (h x)) x0 :=
  (comoving_contDiffAt hz hO hv hu hh hz0 hO0 hh0).div (contDiffAt_const.add hz) (by linarith)

theorem dmod_contDiffAt (hz : ContDiffAt ℝ N z x0) (hO : ContDiffAt ℝ N O x0) (hv : ContDiffAt ℝ N v x0) (hu : ContDiffAt ℝ N u x0)
    (hh : ContDiffAt ℝ N h x0) (hz0 : 0 < z x0) (hO0 : PhysicalOm (O x0)) (hh0 : 0 < h x0) :
    ContDiffAt ℝ N (fun x => distance_modulus_to_z (z x) (O x) (v x) (u x) (h x)) x0 := by
  unfold distance_modulus_to_z log10 Real.logb
  refine contDiffAt_const.mul ((ContDiffAt.log ((luminosity_contDiffAt hz hO hv hu hh (by linarith) hO0 hh0.ne').mul contDiffAt_const)
    ?_).div_const _)
  exact (mul_pos (C49_positive hz0 hO0 hh0 _ _).2.1 (by norm_num)).ne'

theorem hubble_contDiffAt (hz : ContDiffAt ℝ N z x0) (hO : ContDiffAt ℝ N O x0) (hv : ContDiffAt ℝ N v x0) (hu : ContDiffAt ℝ N u x0)
    (hh : ContDiffAt ℝ N h x0) (hz0 : -1 < z x0) (hO0 : PhysicalOm (O x0)) (hh0 : h x0 ≠ 0) :
    ContDiffAt ℝ N (fun x => hubble_time (z x) (O x) (v x) (u x) (h x)) x0 := by
  unfold hubble_time
  exact (contDiffAt_const.div hh hh0).div (Ez_contDiffAt hz hO hv hu hz0 hO0) (Ez_pos hz0 hO0 _ _).ne'

theorem lookback_integrand_contDiffAt {y : E → ℝ} (hy : ContDiffAt ℝ N y x0) (hO : ContDiffAt ℝ N O x0) (hv : ContDiffAt ℝ N v x0)
    (hu : ContDiffAt ℝ N u x0) (hy0 : -1 < y x0) (hO0 : PhysicalOm (O x0)) :
    ContDiffAt ℝ N (fun x => 1 / Ez (y x) (O x) (v x) (u x) / (1 + y x)) x0 :=
  (contDiffAt_const.div (Ez_contDiffAt hy hO hv hu hy0 hO0) (Ez_pos hy0 hO0 _ _).ne').div (contDiffAt_const.add hy) (by linarith)

theorem lookback_contDiffAt (hz : ContDiffAt ℝ N z x0) (hO : ContDiffAt ℝ N O x0) (hv : ContDiffAt ℝ N v x0) (hu : ContDiffAt ℝ N u x0)
    (hh : ContDiffAt ℝ N h x0) (hz0 : -1 < z x0) (hO0 : PhysicalOm (O x0)) (hh0 : h x0 ≠ 0) :
    ContDiffAt ℝ N (fun x => lookback_to_z (z x) (O x) (v x) (u x) (h x)) x0 := by
  unfold lookback_to_z
  refine (hubble_contDiffAt contDiffAt_const hO hv hu hh (by norm_num) hO0 hh0).mul
    (trapz_contDiffAt (k := 511) (linspace_contDiffAt hz 510) fun i => ?_)
  exact lookback_integrand_contDiffAt (linspace_contDiffAt hz 510 i) hO hv hu (linspace_gt hz0 _ _) hO0

theorem age0_contDiffAt (hO : ContDiffAt ℝ N O x0) (hv : ContDiffAt ℝ N v x0) (hu : ContDiffAt ℝ N u x0)
    (hh : ContDiffAt ℝ N h x0) (hO0 : PhysicalOm (O x0)) (hh0 : h x0 ≠ 0) :
    ContDiffAt ℝ N (fun x => age_at_z0 (O x) (v x) (u x) (h x)) x0 := by
  unfold age_at_z0
  refine (hubble_contDiffAt contDiffAt_const hO hv hu hh (by norm_num) hO0 hh0).mul
    (trapz_contDiffAt (k := 511) (fun i => contDiffAt_const) fun i => ?_)
  refine lookback_integrand_contDiffAt (y := fun _ => logspace 0 3 510 i - 1.0) contDiffAt_const hO hv hu ?_ hO0
  have : 0 < logspace 0 3 510 i := Real.rpow_pos_of_pos (by norm_num) _
  norm_num; linarith

end

/-- C93: distances, lookback time, age and Hubble time are infinitely differentiable, jointly in redshift and all four cosmological
parameters, at every redshift above -1, every 0 ≤ Om0 ≤ 1, every w0, wa and every h ≠ 0 (in particular across z = 0). -/
theorem C93_cosmology_smooth :
    let D : Set (ℝ × ℝ × ℝ × ℝ × ℝ) := {p | -1 < p.1 ∧ PhysicalOm p.2.1 ∧ p.2.2.2.2 ≠ 0}
    ∀ p ∈ D,
    ContDiffAt ℝ ∞ (fun p : ℝ × ℝ × ℝ × ℝ × ℝ => comoving_distance_to_z p.1 p.2.1 p.2.2.1 p.2.2.2.1 p.2.2.2.2) p ∧
    ContDiffAt ℝ ∞ (fun p : ℝ × ℝ × ℝ × ℝ × ℝ => luminosity_distance_to_z p.1 p.2.1 p.2.2.1 p.2.2.2.1 p.2.2.2.2) p ∧
    ContDiffAt ℝ ∞ (fun p : ℝ × ℝ × ℝ × ℝ × ℝ => angular_diameter_distance_to_z p.1 p.2.1 p.2.2.1 p.2.2.2.1 p.2.2.2.2) p ∧
    ContDiffAt ℝ ∞ (fun p : ℝ × ℝ × ℝ × ℝ × ℝ => lookback_to_z p.1 p.2.1 p.2.2.1 p.2.2.2.1 p.2.2.2.2) p ∧
    ContDiffAt ℝ ∞ (fun p : ℝ × ℝ × ℝ × ℝ × ℝ => age_at_z_kern p.1 p.2.1 p.2.2.1 p.2.2.2.1 p.2.2.2.2) p ∧
    ContDiffAt ℝ ∞ (fun p : ℝ × ℝ × ℝ × ℝ × ℝ => hubble_time p.1 p.2.1 p.2.2.1 p.2.2.2.1 p.2.2.2.2) p := by
  intro D p hp
  obtain ⟨h1, h2, h3⟩ := hp
  have a1 : ContDiffAt ℝ ∞ (fun p : ℝ × ℝ × ℝ × ℝ × ℝ => p.1) p := by fun_prop
  have a2 : ContDiffAt ℝ ∞ (fun p : ℝ × ℝ × ℝ × ℝ × ℝ => p.2.1) p := by fun_prop
  have a3 : ContDiffAt ℝ ∞ (fun p : ℝ × ℝ × ℝ × ℝ × ℝ => p.2.2.1) p := by fun_prop
  have a4 : ContDiffAt ℝ ∞ (fun p : ℝ × ℝ × ℝ × ℝ × ℝ => p.2.2.2.1) p := by fun_prop
  have a5 : ContDiffAt ℝ ∞ (fun p : ℝ × ℝ × ℝ × ℝ × ℝ => p.2.2.2.2) p := by fun_prop
  exact ⟨comoving_contDiffAt a1 a2 a3 a4 a5 h1 h2 h3, luminosity_contDiffAt a1 a2 a3 a4 a5 h1 h2 h3,
    angular_contDiffAt a1 a2 a3 a4 a5 h1 h2 h3, lookback_contDiffAt a1 a2 a3 a4 a5 h1 h2 h3,
    (age0_contDiffAt a2 a3 a4 a5 h2 h3).sub (lookback_contDiffAt a1 a2 a3 a4 a5 h1 h2 h3),
    hubble_contDiffAt a1 a2 a3 a4 a5 h1 h2 h3⟩

/-- C93: the distance modulus is infinitely differentiable for z > 0 and h > 0. -/
theorem C93_distance_modulus_smooth (p : ℝ × ℝ × ℝ × ℝ × ℝ) (hz : 0 < p.1) (hO : PhysicalOm p.2.1) (hh : 0 < p.2.2.2.2) :
    ContDiffAt ℝ ∞ (fun p : ℝ × ℝ × ℝ × ℝ × ℝ => distance_modulus_to_z p.1 p.2.1 p.2.2.1 p.2.2.2.1 p.2.2.2.2) p :=
  dmod_contDiffAt (by fun_prop) (by fun_prop) (by fun_prop) (by fun_prop) (by fun_prop) hz hO hh

example : -1 < (0:ℝ) ∧ PhysicalOm 0.3 ∧ (0.7:ℝ) ≠ 0 := ⟨by norm_num, ⟨by norm_num, by norm_num⟩, by norm_num⟩

/-! ## C94 -/

/-- no sample of the filter sits exactly at an end of the redshifted spectrum -/
def NoSampleOnEdge (wave : Fin (n + 2) → ℝ) (fw : Fin (m + 1) → ℝ) (z : ℝ) : Prop :=
  ∀ i, fw i ≠ wave 0 * (1 + z) ∧ fw i ≠ wave (Fin.last _) * (1 + z)

theorem obs_flux_continuousAt [Dtype] {X : Type*} [TopologicalSpace X] {x0 : X} (wave : Fin (n + 2) → ℝ) {lum : X → Fin (n + 2) → ℝ}
    {z : X → ℝ} (fw ft : Fin (m + 1) → ℝ) (hl : ContinuousAt lum x0) (hz : ContinuousAt z x0)
    (hr : Resolved fun j => wave j * (1 + z x0)) (he : NoSampleOnEdge wave fw (z x0)) :
    ContinuousAt (fun x => obs_flux_ssp wave (lum x) fw ft (z x)) x0 := by
  unfold obs_flux_ssp
  simp only [trapz_eq]
  have key : ∀ i, ContinuousAt (fun x => ft i * interpLR (fw i) (fun j => wave j * (1 + z x)) (lum x) 0 0 / fw i) x0 := fun i =>
    (continuousAt_const.mul (interp0_continuousAt (x := fun _ => fw i) continuousAt_const
      (continuousAt_pi.2 fun j => continuousAt_const.mul (continuousAt_const.add hz)) hl hr (he i).1 (he i).2)).div_const _
  exact tendsto_finset_sum _ fun i _ => (continuousAt_const.mul ((key _).add (key _))).div_const _

/-- C94: the observer-frame band flux is jointly continuous in the spectrum and the redshift wherever no filter sample coincides with an
end of the redshifted wavelength grid (so always while the filter stays strictly inside the coverage). -/
theorem C94_flux_continuous [Dtype] (wave : Fin (n + 2) → ℝ) (fw ft : Fin (m + 1) → ℝ) :
    ContinuousOn (fun p : (Fin (n + 2) → ℝ) × ℝ => obs_flux_ssp wave p.1 fw ft p.2)
      {p | (Resolved fun j => wave j * (1 + p.2)) ∧ NoSampleOnEdge wave fw p.2} :=
  fun _ hp => (obs_flux_continuousAt wave fw ft continuousAt_fst continuousAt_snd hp.1 hp.2).continuousWithinAt

/-- C94: apparent magnitudes are jointly continuous in spectrum, redshift and cosmology for z > 0 and non-zero band flux. -/
theorem C94_obs_mag_continuous [Dtype] (wave : Fin (n + 2) → ℝ) (fw ft : Fin (m + 1) → ℝ) :
    ContinuousOn (fun p : (Fin (n + 2) → ℝ) × ℝ × ℝ × ℝ × ℝ × ℝ =>
        calc_obs_mag wave p.1 fw ft p.2.1 p.2.2.1 p.2.2.2.1 p.2.2.2.2.1 p.2.2.2.2.2)
      {p | 0 < p.2.1 ∧ PhysicalOm p.2.2.1 ∧ 0 < p.2.2.2.2.2 ∧ (Resolved fun j => wave j * (1 + p.2.1)) ∧
        NoSampleOnEdge wave fw p.2.1 ∧ obs_flux_ssp wave p.1 fw ft p.2.1 / flux_ab0_at_10pc fw ft ≠ 0} := by
  rintro p ⟨hz, hO, hh, hr, he, hne⟩
  refine ContinuousAt.continuousWithinAt ?_
  unfold calc_obs_mag
  have h1 : ContinuousAt (fun p : (Fin (n + 2) → ℝ) × ℝ × ℝ × ℝ × ℝ × ℝ => obs_flux_ssp wave p.1 fw ft p.2.1) p :=
    obs_flux_continuousAt (z := fun p : (Fin (n + 2) → ℝ) × ℝ × ℝ × ℝ × ℝ × ℝ => p.2.1) wave fw ft continuousAt_fst (by fun_prop) hr he
  have h2 : ContinuousAt (fun p : (Fin (n + 2) → ℝ) × ℝ × ℝ × ℝ × ℝ × ℝ =>
      distance_modulus_to_z p.2.1 p.2.2.1 p.2.2.2.1 p.2.2.2.2.1 p.2.2.2.2.2) p :=
    ((C93_distance_modulus_smooth p.2 hz hO hh).continuousAt).comp (f := fun p : (Fin (n + 2) → ℝ) × ℝ × ℝ × ℝ × ℝ × ℝ => p.2) (by fun_prop)
  have h3 : ContinuousAt (fun p : (Fin (n + 2) → ℝ) × ℝ × ℝ × ℝ × ℝ × ℝ => log10 (1 + p.2.1)) p := by
    unfold log10 Real.logb
    exact (ContinuousAt.log (by fun_prop) (by linarith)).div_const _
  have h4 : ContinuousAt (fun p : (Fin (n + 2) → ℝ) × ℝ × ℝ × ℝ × ℝ × ℝ =>
      log10 (obs_flux_ssp wave p.1 fw ft p.2.1 / flux_ab0_at_10pc fw ft)) p := by
    unfold log10 Real.logb
    exact (ContinuousAt.log (h1.div_const _) hne).div_const _
  unfold cosmological_dimming
  exact (continuousAt_const.mul h4).add (h2.sub (continuousAt_const.mul h3))

/-- C94: rest-frame magnitudes are continuous in the spectrum wherever the band flux is non-zero (no condition on the filter: all samples
stay where they are). -/
theorem C94_rest_mag_continuous [Dtype] (wave : Fin (n + 2) → ℝ) (hr : Resolved wave) (fw ft : Fin (m + 1) → ℝ) :
    Continuous (fun lum => calc_rest_flux wave lum fw ft) ∧
    ContinuousOn (fun lum => calc_rest_mag wave lum fw ft) {lum | calc_rest_flux wave lum fw ft ≠ 0} := by
  have hc : Continuous (fun lum => calc_rest_flux wave lum fw ft) := by
    unfold calc_rest_flux rest_flux_ssp
    simp only [trapz_eq]
    have key : ∀ i, Continuous (fun lum => ft i * interpLR (fw i) wave lum 0 0 / fw i) := by
      intro i
      refine (continuous_const.mul ?_).div_const _
      rcases lt_or_ge (fw i) (wave 0) with h | h
      · simp only [interp_of_lt hr.strictMono.monotone h]; exact continuous_const
      rcases lt_or_ge (wave (Fin.last _)) (fw i) with h' | h'
      · simp only [interp_of_gt h']; exact continuous_const
      · have : (fun lum => interpLR (fw i) wave lum 0 0) = fun lum => interp (fw i) wave lum := by
          funext lum; unfold interp; rw [interp_of_mem h h', interp_of_mem h h']
        rw [this]
        exact (continuous_interp hr).comp (f := fun lum => (fw i, lum)) (by fun_prop)
    exact (continuous_finset_sum _ fun i _ => (continuous_const.mul ((key _).add (key _))).div_const _).div_const _
  refine ⟨hc, fun lum hl => ContinuousAt.continuousWithinAt ?_⟩
  unfold calc_rest_mag log10 Real.logb
  exact continuousAt_const.mul ((ContinuousAt.log hc.continuousAt hl).div_const _)

/-- non-vacuity: a spectrum on 1..5 at redshift one covers 2..10; filter samples at 4, 5, 6 -/
example : (@Resolved 3 Dtype.float64 fun j : Fin 5 => (((j : ℕ) : ℝ) + 1) * (1 + 1)) ∧
    NoSampleOnEdge (n := 3) (m := 2) (fun j => ((j : ℕ) : ℝ) + 1) ![4, 5, 6] 1 := by
  constructor
  · intro i
    show (2:ℝ)⁻¹ ^ 104 < _
    simp only [Fin.val_succ, Fin.val_castSucc]
    push_cast
    have : (2:ℝ)⁻¹ ^ 104 < 1 := by norm_num
    linarith
  · intro i
    fin_cases i <;> norm_num [Fin.last]

/-- C94, finding: the coverage condition is needed.  Flat spectrum on [1,2], filter samples at 3 and 4: the band flux as a function of
redshift jumps at z = 1, where the red end of the spectrum meets the red end of the filter. -/
theorem C94_jump_at_edge : ∃ (wave lum fw ft : Fin 2 → ℝ), StrictMono wave ∧ StrictMono fw ∧ (∀ i, 0 < lum i) ∧ (∀ i, 0 < ft i) ∧
    ¬ ContinuousAt (fun z => @obs_flux_ssp 0 1 Dtype.float64 wave lum fw ft z) 1 := by
  letI := Dtype.float64
  refine ⟨![1, 2], ![1, 1], ![3, 4], ![1, 1], ?_, ?_, ?_, ?_, fun hc => ?_⟩
  · rw [Fin.strictMono_iff_lt_succ]; intro i; fin_cases i; simp
  · rw [Fin.strictMono_iff_lt_succ]; intro i; fin_cases i; norm_num
  · intro i; fin_cases i <;> simp
  · intro i; fin_cases i <;> simp
  have hmono : ∀ z : ℝ, 0 < 1 + z → Monotone fun j : Fin 2 => (![1, 2] : Fin 2 → ℝ) j * (1 + z) := by
    intro z hz
    rw [Fin.monotone_iff_le_succ]; intro i; fin_cases i; simp; linarith
  have hl : ∀ j : Fin 2, (![1, 1] : Fin 2 → ℝ) j = 1 := by intro j; fin_cases j <;> rfl
  have hin : ∀ z x : ℝ, 0 < 1 + z → 1 + z ≤ x → x ≤ 2 * (1 + z) →
      interpLR x (fun j : Fin 2 => (![1, 2] : Fin 2 → ℝ) j * (1 + z)) ![1, 1] 0 0 = 1 := by
    intro z x hz h1 h2
    have := interp0_const (hmono z hz) (x := x) 1 (by simpa using h1) (by simpa using h2)
    rwa [show (fun _ : Fin 2 => (1:ℝ)) = ![1, 1] by funext j; rw [hl]] at this
  have hout : ∀ z x : ℝ, 2 * (1 + z) < x →
      interpLR x (fun j : Fin 2 => (![1, 2] : Fin 2 → ℝ) j * (1 + z)) ![1, 1] 0 0 = 0 := by
    intro z x h
    exact interp_of_gt (by simpa using h)
  have e : ∀ z, obs_flux_ssp ![1, 2] ![1, 1] ![3, 4] ![1, 1] z =
      (interpLR 3 (fun j : Fin 2 => (![1, 2] : Fin 2 → ℝ) j * (1 + z)) ![1, 1] 0 0 / 3 +
       interpLR 4 (fun j : Fin 2 => (![1, 2] : Fin 2 → ℝ) j * (1 + z)) ![1, 1] 0 0 / 4) / 2 := by
    intro z
    unfold obs_flux_ssp
    simp only [trapz_eq]
    norm_num
  have h1 : obs_flux_ssp ![1, 2] ![1, 1] ![3, 4] ![1, 1] 1 = 7 / 24 := by
    rw [e, hin 1 3 (by norm_num) (by norm_num) (by norm_num), hin 1 4 (by norm_num) (by norm_num) (by norm_num)]; norm_num
  have hlim : Tendsto (fun z => obs_flux_ssp ![1, 2] ![1, 1] ![3, 4] ![1, 1] z) (𝓝[<] 1) (𝓝 (1 / 6)) := by
    refine tendsto_const_nhds.congr' ?_
    have : Ioo (0.5:ℝ) 1 ∈ 𝓝[<] (1:ℝ) := Ioo_mem_nhdsLT (by norm_num)
    filter_upwards [this] with z hz
    rw [e, hin z 3 (by linarith [hz.1, show (0:ℝ) < 0.5 by norm_num]) (by linarith [hz.2]) (by have := hz.1; norm_num at this; linarith),
      hout z 4 (by linarith [hz.2])]; norm_num
  have := tendsto_nhds_unique (hc.tendsto.mono_left nhdsWithin_le_nhds) hlim
  rw [h1] at this
  norm_num at this

end Dsps.Props

namespace Dsps.Props
open Dsps.Utils Dsps.Lemmas Dsps.FlatWcdm Dsps.Photometry Jnp Set Filter Topology Spec

section
attribute [local instance] Dtype.float64
/-- C93 and C94 applied at redshift 1/2 -/
example := C93_distance_modulus_smooth (1 / 2, 0.3, -1, 0, 0.7) (by norm_num) ⟨by norm_num, by norm_num⟩ (by norm_num)
theorem caseWave_resolved_z : Resolved (n := 1) fun j => caseWave j * (1 + 1 / 2) := by
  intro i; show (2:ℝ)⁻¹ ^ 104 < _; fin_cases i <;> simp [caseWave] <;> norm_num
theorem case_no_edge : NoSampleOnEdge (n := 1) (m := 2) caseWave caseFW (1 / 2) := by
  intro i; fin_cases i <;> norm_num [caseWave, caseFW, Fin.last]
example := (C94_flux_continuous (n := 1) (m := 2) caseWave caseFW caseFT).continuousWithinAt (x := (caseLum, 1 / 2))
  ⟨caseWave_resolved_z, case_no_edge⟩
example := (C94_obs_mag_continuous (n := 1) (m := 2) caseWave caseFW caseFT).continuousWithinAt (x := (caseLum, 1 / 2, 0.3, -1, 0, 0.7))
  ⟨by norm_num, ⟨by norm_num, by norm_num⟩, by norm_num, caseWave_resolved_z, case_no_edge, case_obs_flux.ne'⟩
example := (C94_rest_mag_continuous (n := 1) (m := 2) caseWave caseWave_resolved caseFW caseFT).2.continuousWithinAt (x := caseLum) case_flux.ne'
end

end Dsps.Props
