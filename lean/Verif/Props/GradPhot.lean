import Verif.Lemmas.GenPhot
import Verif.Props.Gradients
import Verif.Cases
import Verif.Props.NonFinitePhot

/-! Properties C103-C106: gradients (`jax.grad`) of magnitudes, burst weights and cosmological functions, and where they are nan. -/
namespace Dsps.Props
open Rev XF Dsps.Lemmas Dsps.Constants Spec

variable {ι : Type} [Fintype ι] [DecidableEq ι] {θ : ι → ℝ} {n m k w : ℕ}

/-! ## C103: photometry -/

section phot
variable [Jnp.Dtype]

/-- **Specification.**  The wavelengths are not at a kink of the flux integral: either they do not vary with the parameters, or the
wavelengths of the spectrum are resolved and no wavelength of the filter is one of them. -/
def NoWaveKink (W : (ι → ℝ) → Fin (n + 2) → ℝ) (fw : (ι → ℝ) → Fin (m + 1) → ℝ) (θ : ι → ℝ) : Prop :=
  (Fixed W θ ∧ Fixed fw θ) ∨ (Jnp.Resolved (W θ) ∧ ∀ i j, fw θ i ≠ W θ j)

omit [DecidableEq ι] in
/-- C103: the gradients of the rest-frame magnitude are finite as soon as the magnitude is (positive flux), and exact unless the wavelengths
themselves vary with the parameters and a filter wavelength coincides with one of the spectrum. -/
theorem C103_rest_mag_grad {W L : (ι → ℝ) → Fin (n + 2) → ℝ} {fw ft : (ι → ℝ) → Fin (m + 1) → ℝ}
    {W' L' : Fin (n + 2) → Rv ι} {fw' ft' : Fin (m + 1) → Rv ι} (hW : ∀ i, Traced True (W' i) (fun θ => W θ i) θ)
    (hL : ∀ i, Traced True (L' i) (fun θ => L θ i) θ) (hfw : ∀ i, Traced True (fw' i) (fun θ => fw θ i) θ)
    (hft : ∀ i, Traced True (ft' i) (fun θ => ft θ i) θ) (h0 : ∀ i, fw θ i ≠ 0) (hA : Photometry.flux_ab0_at_10pc (fw θ) (ft θ) ≠ 0)
    (hpos : 0 < Photometry.calc_rest_flux (W θ) (L θ) (fw θ) (ft θ)) :
    Traced (NoWaveKink W fw θ) (Gen.calc_rest_mag W' L' fw' ft')
      (fun θ => Photometry.calc_rest_mag (W θ) (L θ) (fw θ) (ft θ)) θ :=
  (traced_calc_rest_mag hW hL hfw hft h0 hA hpos).weaken fun h => ⟨trivial, h⟩

omit [DecidableEq ι] in
/-- C103: the same for the rest-frame flux, of any sign. -/
theorem C103_rest_flux_grad {W L : (ι → ℝ) → Fin (n + 2) → ℝ} {fw ft : (ι → ℝ) → Fin (m + 1) → ℝ}
    {W' L' : Fin (n + 2) → Rv ι} {fw' ft' : Fin (m + 1) → Rv ι} (hW : ∀ i, Traced True (W' i) (fun θ => W θ i) θ)
    (hL : ∀ i, Traced True (L' i) (fun θ => L θ i) θ) (hfw : ∀ i, Traced True (fw' i) (fun θ => fw θ i) θ)
    (hft : ∀ i, Traced True (ft' i) (fun θ => ft θ i) θ) (h0 : ∀ i, fw θ i ≠ 0) (hA : Photometry.flux_ab0_at_10pc (fw θ) (ft θ) ≠ 0) :
    Traced (NoWaveKink W fw θ) (Gen.calc_rest_flux W' L' fw' ft')
      (fun θ => Photometry.calc_rest_flux (W θ) (L θ) (fw θ) (ft θ)) θ :=
  (traced_calc_rest_flux hW hL hfw hft h0 hA).weaken fun h => ⟨trivial, h⟩

omit [DecidableEq ι] in
/-- C103: the same for the observed magnitude at positive redshift, with all the cosmological parameters. -/
theorem C103_obs_mag_grad {W L : (ι → ℝ) → Fin (n + 2) → ℝ} {fw ft : (ι → ℝ) → Fin (m + 1) → ℝ} {z O v u h : (ι → ℝ) → ℝ}
    {W' L' : Fin (n + 2) → Rv ι} {fw' ft' : Fin (m + 1) → Rv ι} {z' O' v' u' h' : Rv ι} (hW : ∀ i, Traced True (W' i) (fun θ => W θ i) θ)
    (hL : ∀ i, Traced True (L' i) (fun θ => L θ i) θ) (hfw : ∀ i, Traced True (fw' i) (fun θ => fw θ i) θ)
    (hft : ∀ i, Traced True (ft' i) (fun θ => ft θ i) θ) (hz' : Traced True z' z θ) (hO' : Traced True O' O θ) (hv : Traced True v' v θ)
    (hu : Traced True u' u θ) (hh' : Traced True h' h θ) (h0 : ∀ i, fw θ i ≠ 0)
    (hpos : 0 < Photometry.obs_flux_ssp (W θ) (L θ) (fw θ) (ft θ) (z θ) / Photometry.flux_ab0_at_10pc (fw θ) (ft θ))
    (hz : 0 < z θ) (hO : PhysicalOm (O θ)) (hh : 0 < h θ) :
    Traced (NoWaveKink (fun θ j => W θ j * (1 + z θ)) fw θ) (Gen.calc_obs_mag W' L' fw' ft' z' O' v' u' h')
      (fun θ => Photometry.calc_obs_mag (W θ) (L θ) (fw θ) (ft θ) (z θ) (O θ) (v θ) (u θ) (h θ)) θ :=
  (traced_calc_obs_mag hW hL hfw hft hz' hO' hv hu hh' h0 hpos hz hO hh).weaken fun h => ⟨trivial, h⟩

/-- C103: in particular `jax.grad` of the rest-frame magnitude with respect to the luminosities is exact wherever the magnitude is finite. -/
theorem C103_rest_mag_jax_grad (wave lum : Fin (n + 2) → ℝ) (fw ft : Fin (m + 1) → ℝ) (h0 : ∀ i, fw i ≠ 0)
    (hA : Photometry.flux_ab0_at_10pc fw ft ≠ 0) (hpos : 0 < Photometry.calc_rest_flux wave lum fw ft) :
    GradOk True
      (Gen.calc_rest_mag (fun j => Flt.lit (wave j)) (fun j => Rv.var j (fin (lum j))) (fun j => Flt.lit (fw j)) (fun j => Flt.lit (ft j)))
      (fun lum => Photometry.calc_rest_mag wave lum fw ft) lum :=
  ((C103_rest_mag_grad (θ := lum) (fun _ => Traced.lit _) (fun j => Traced.var j) (fun _ => Traced.lit _) (fun _ => Traced.lit _) h0 hA
    hpos).weaken fun _ => Or.inl ⟨Fixed.const _, Fixed.const _⟩).gradOk

/-- C103: `jax.grad` of the observed magnitude with respect to the luminosities (`inl i`) and to matter density, `w0`, `wa` and `h` (`inr`) is
exact at every positive redshift wherever the flux is positive. -/
theorem C103_obs_mag_jax_grad (wave lum : Fin (n + 2) → ℝ) (fw ft : Fin (m + 1) → ℝ) (z Om0 w0 wa h : ℝ) (h0 : ∀ i, fw i ≠ 0)
    (hpos : 0 < Photometry.obs_flux_ssp wave lum fw ft z / Photometry.flux_ab0_at_10pc fw ft) (hz : 0 < z) (hO : PhysicalOm Om0) (hh : 0 < h) :
    GradOk True
      (Gen.calc_obs_mag (fun j => Flt.lit (wave j)) (fun j => Rv.var (Sum.inl j) (fin (lum j))) (fun j => Flt.lit (fw j))
        (fun j => Flt.lit (ft j)) (Flt.lit z) (Rv.var (Sum.inr (0 : Fin 4)) (fin Om0)) (Rv.var (Sum.inr 1) (fin w0))
        (Rv.var (Sum.inr 2) (fin wa)) (Rv.var (Sum.inr 3) (fin h)))
      (fun θ : Fin (n + 2) ⊕ Fin 4 → ℝ => Photometry.calc_obs_mag wave (fun j => θ (Sum.inl j)) fw ft z (θ (Sum.inr 0)) (θ (Sum.inr 1))
        (θ (Sum.inr 2)) (θ (Sum.inr 3)))
      (Sum.elim lum ![Om0, w0, wa, h]) :=
  ((C103_obs_mag_grad (θ := Sum.elim lum ![Om0, w0, wa, h]) (fun _ => Traced.lit _) (fun j => Traced.var (Sum.inl j)) (fun _ => Traced.lit _)
    (fun _ => Traced.lit _) (Traced.lit _) (Traced.var (Sum.inr 0)) (Traced.var (Sum.inr 1)) (Traced.var (Sum.inr 2))
    (Traced.var (Sum.inr 3)) h0 hpos hz hO hh).weaken fun _ => Or.inl ⟨Fixed.const _, Fixed.const _⟩).gradOk

/-- C103: `jax.grad` of the observed magnitude with respect to the redshift is finite at every positive redshift with positive flux, and exact unless
a filter wavelength coincides with a redshifted wavelength of the spectrum. -/
theorem C103_obs_mag_redshift_grad (wave lum : Fin (n + 2) → ℝ) (fw ft : Fin (m + 1) → ℝ) (z Om0 w0 wa h : ℝ) (h0 : ∀ i, fw i ≠ 0)
    (hpos : 0 < Photometry.obs_flux_ssp wave lum fw ft z / Photometry.flux_ab0_at_10pc fw ft) (hz : 0 < z) (hO : PhysicalOm Om0) (hh : 0 < h) :
    GradOk (Jnp.Resolved (fun j => wave j * (1 + z)) ∧ ∀ i j, fw i ≠ wave j * (1 + z))
      (Gen.calc_obs_mag (fun j => Flt.lit (wave j)) (fun j => Flt.lit (lum j)) (fun j => Flt.lit (fw j))
        (fun j => Flt.lit (ft j)) (Rv.var () (fin z)) (Flt.lit Om0) (Flt.lit w0) (Flt.lit wa) (Flt.lit h))
      (fun θ : Unit → ℝ => Photometry.calc_obs_mag wave lum fw ft (θ ()) Om0 w0 wa h) (fun _ => z) :=
  ((C103_obs_mag_grad (θ := fun _ : Unit => z) (fun _ => Traced.lit _) (fun _ => Traced.lit _) (fun _ => Traced.lit _)
    (fun _ => Traced.lit _) (Traced.var ()) (Traced.lit _) (Traced.lit _) (Traced.lit _) (Traced.lit _) h0 hpos hz hO hh).weaken
    fun h => Or.inr h).gradOk

omit [Fintype ι] [DecidableEq ι] in
/-- a positive spectrum that covers the filter has positive flux in it -/
theorem flux_pos_of_covered {wave lum : Fin (n + 2) → ℝ} (hw : Monotone wave) (hl : ∀ j, 0 < lum j) {fw ft : Fin (m + 1) → ℝ}
    (hf : GoodFilter fw ft) (hA : 0 < Photometry.flux_ab0_at_10pc fw ft) {z : ℝ} (hz : -1 < z)
    (hcov : ∀ i, wave 0 * (1 + z) ≤ fw i ∧ fw i ≤ wave (Fin.last (n + 1)) * (1 + z)) :
    0 < Photometry.obs_flux_ssp wave lum fw ft z / Photometry.flux_ab0_at_10pc fw ft := by
  obtain ⟨j, hj⟩ := Finite.exists_min lum
  have hm : Monotone fun j => wave j * (1 + z) := fun i j hij => mul_le_mul_of_nonneg_right (hw hij) (by linarith)
  have e : Photometry.obs_flux_ssp wave (fun _ => lum j) fw ft z = lum j / 1.13492e-13 * Photometry.flux_ab0_at_10pc fw ft := by
    unfold Photometry.obs_flux_ssp Photometry.flux_ab0_at_10pc Photometry.AB0
    rw [← trapz_smul]
    simp only
    congr 1; funext i
    rw [interp0_const hm (lum j) (hcov i).1 (hcov i).2]
    norm_num
    ring
  have h2 := obs_flux_mono (f := fun _ => lum j) hw hf hz hj
  rw [e] at h2
  have := hl j
  exact div_pos (lt_of_lt_of_le (by positivity) h2) hA

/-- C103: a positive spectrum that covers the redshifted filter: `jax.grad` of the observed magnitude with respect to the luminosities (`inl i`) and the
cosmology (`inr`) is finite and exact. -/
theorem C103_obs_mag_grad_covered {wave lum : Fin (n + 2) → ℝ} (hw : Monotone wave) (hl : ∀ j, 0 < lum j) {fw ft : Fin (m + 1) → ℝ}
    (hf : GoodFilter fw ft) (hA : 0 < Photometry.flux_ab0_at_10pc fw ft) {z Om0 w0 wa h : ℝ} (hz : 0 < z) (hO : PhysicalOm Om0) (hh : 0 < h)
    (h0 : ∀ i, fw i ≠ 0) (hcov : ∀ i, wave 0 * (1 + z) ≤ fw i ∧ fw i ≤ wave (Fin.last (n + 1)) * (1 + z)) :
    GradOk True
      (Gen.calc_obs_mag (fun j => Flt.lit (wave j)) (fun j => Rv.var (Sum.inl j) (fin (lum j))) (fun j => Flt.lit (fw j))
        (fun j => Flt.lit (ft j)) (Flt.lit z) (Rv.var (Sum.inr (0 : Fin 4)) (fin Om0)) (Rv.var (Sum.inr 1) (fin w0))
        (Rv.var (Sum.inr 2) (fin wa)) (Rv.var (Sum.inr 3) (fin h)))
      (fun θ : Fin (n + 2) ⊕ Fin 4 → ℝ => Photometry.calc_obs_mag wave (fun j => θ (Sum.inl j)) fw ft z (θ (Sum.inr 0)) (θ (Sum.inr 1))
        (θ (Sum.inr 2)) (θ (Sum.inr 3)))
      (Sum.elim lum ![Om0, w0, wa, h]) :=
  C103_obs_mag_jax_grad wave lum fw ft z Om0 w0 wa h h0 (flux_pos_of_covered hw hl hf hA (by linarith) hcov) hz hO hh

/-- the hypotheses are met: a rising spectrum from 1000 to 10000 Å, a box filter at 4000 to 6000 Å, redshift 1 -/
example (w0 wa : ℝ) : ∃ (wave lum : Fin 3 → ℝ) (fw ft : Fin 2 → ℝ) (z Om0 h : ℝ), Monotone wave ∧ (∀ j, 0 < lum j) ∧ GoodFilter fw ft ∧
    (∀ i, fw i ≠ 0) ∧ 0 < z ∧ PhysicalOm Om0 ∧ 0 < h ∧
    0 < Photometry.obs_flux_ssp wave lum fw ft z / Photometry.flux_ab0_at_10pc fw ft ∧ ∀ i j, fw i ≠ wave j * (1 + z) := by
  have hw : Monotone (![1000, 2000, 5000] : Fin 3 → ℝ) := by
    rw [Fin.monotone_iff_le_succ]; intro i; fin_cases i <;> simp <;> norm_num
  have hl : ∀ j, 0 < (![1, 2, 3] : Fin 3 → ℝ) j := by intro j; fin_cases j <;> simp
  have hf : GoodFilter (![4500, 6000] : Fin 2 → ℝ) ![1, 1] := by
    refine ⟨?_, ?_, ?_⟩
    · rw [Fin.monotone_iff_le_succ]; intro i; fin_cases i; simp; norm_num
    · intro i; fin_cases i <;> simp
    · intro i; fin_cases i <;> simp
  refine ⟨![1000, 2000, 5000], ![1, 2, 3], ![4500, 6000], ![1, 1], 1, 0.3, 0.7, hw, hl, hf, ?_, one_pos, ⟨by norm_num, by norm_num⟩,
    by norm_num, flux_pos_of_covered hw hl hf ?_ (by norm_num) ?_, ?_⟩
  · intro i; fin_cases i <;> simp
  · unfold Photometry.flux_ab0_at_10pc Photometry.AB0; simp only; rw [trapz_eq]; simp [Fin.sum_univ_succ]; norm_num
  · intro i; fin_cases i <;> simp <;> norm_num
  · intro i j; fin_cases i <;> fin_cases j <;> norm_num

end phot

/-! ## C104: bursts -/

omit [DecidableEq ι] in
/-- C104: the gradients of the bursty age weights are finite for every burst with `lgyr_peak < lgyr_max`, even if it contains no age of the grid,
and exact as soon as it contains one. -/
theorem C104_bursty_grad {S a : (ι → ℝ) → Fin n → ℝ} {f p q : (ι → ℝ) → ℝ} {S' a' : Fin n → Rv ι} {f' p' q' : Rv ι}
    (hS : ∀ i, Traced True (S' i) (fun θ => S θ i) θ) (ha : ∀ i, Traced True (a' i) (fun θ => a θ i) θ) (hf : Traced True f' f θ)
    (hp : Traced True p' p θ) (hq : Traced True q' q θ) (hpq : p θ < q θ) (i : Fin n) :
    Traced (∃ i, a θ i + 9 ∈ BurstSupport (p θ) (q θ)) (Gen.calc_bursty_age_weights f' p' q' S' a' i)
      (fun θ => Diffburst.calc_bursty_age_weights ⟨f θ, p θ, q θ⟩ (S θ) (a θ) i) θ :=
  (TV.bursty hS ha hf hp hq hpq i).weaken fun h => ⟨trivial, h⟩

/-- on every age grid reaching from 1 Myr to 10 Myr with gaps below two dex each burst contains an age of the grid -/
theorem burst_contains_age (u : Diffburst.BurstUParams) (lg_age_gyr : Fin (n + 1) → ℝ) (h0 : lg_age_gyr 0 ≤ -3) (h1 : -2 ≤ lg_age_gyr (Fin.last n))
    (hgap : ∀ i : Fin n, lg_age_gyr i.succ - lg_age_gyr i.castSucc < 2) :
    ∃ i, lg_age_gyr i + 9 ∈ BurstSupport (Diffburst.get_params_from_u_params u).lgyr_peak (Diffburst.get_params_from_u_params u).lgyr_max := by
  have hb := C27_burst_bounds u
  by_contra hno
  have hs : IsProbVector (fun i : Fin (n + 1) => if i = 0 then (1:ℝ) else 0) :=
    ⟨fun i => by show (0:ℝ) ≤ if i = 0 then 1 else 0; split_ifs <;> norm_num, by simp⟩
  have a := (C30_bursty_prob_partial _ hb _ lg_age_gyr hs h0 h1 hgap).2
  have b := (C30_mass_lost _ hb _ lg_age_gyr hs (fun i hi => hno ⟨i, hi⟩)).2
  exact absurd a b.ne

omit [DecidableEq ι] in
/-- C104: with the unbounded burst parameters the gradients are finite for all real parameter values, on every age grid; and exact on every grid reaching
from 1 Myr to 10 Myr with gaps below two dex. -/
theorem C104_bursty_u_grad {S a : (ι → ℝ) → Fin (n + 1) → ℝ} {f p q : (ι → ℝ) → ℝ} {S' a' : Fin (n + 1) → Rv ι} {f' p' q' : Rv ι}
    (hS : ∀ i, Traced True (S' i) (fun θ => S θ i) θ) (ha : ∀ i, Traced True (a' i) (fun θ => a θ i) θ) (hf : Traced True f' f θ)
    (hp : Traced True p' p θ) (hq : Traced True q' q θ) (i : Fin (n + 1)) :
    Traced (a θ 0 ≤ -3 ∧ -2 ≤ a θ (Fin.last n) ∧ ∀ i : Fin n, a θ i.succ - a θ i.castSucc < 2)
      (Gen.calc_bursty_age_weights_from_u_params f' p' q' S' a' i)
      (fun θ => Diffburst.calc_bursty_age_weights_from_u_params ⟨f θ, p θ, q θ⟩ (S θ) (a θ) i) θ :=
  (TV.bursty_u hS ha hf hp hq i).weaken fun h => ⟨trivial, burst_contains_age _ _ h.1 h.2.1 h.2.2⟩

/-- C104: in particular `jax.grad` with respect to the three unbounded burst parameters. -/
theorem C104_bursty_u_jax_grad (u : Diffburst.BurstUParams) (smooth lg_age_gyr : Fin (n + 1) → ℝ) (i : Fin (n + 1)) :
    GradOk (lg_age_gyr 0 ≤ -3 ∧ -2 ≤ lg_age_gyr (Fin.last n) ∧ ∀ i : Fin n, lg_age_gyr i.succ - lg_age_gyr i.castSucc < 2)
      (Gen.calc_bursty_age_weights_from_u_params (Rv.var (0 : Fin 3) (fin u.u_lgfburst)) (Rv.var 1 (fin u.u_lgyr_peak))
        (Rv.var 2 (fin u.u_lgyr_max)) (fun j => Flt.lit (smooth j)) (fun j => Flt.lit (lg_age_gyr j)) i)
      (fun θ => Diffburst.calc_bursty_age_weights_from_u_params ⟨θ 0, θ 1, θ 2⟩ smooth lg_age_gyr i)
      ![u.u_lgfburst, u.u_lgyr_peak, u.u_lgyr_max] :=
  (C104_bursty_u_grad (θ := ![u.u_lgfburst, u.u_lgyr_peak, u.u_lgyr_max]) (fun _ => Traced.lit _) (fun _ => Traced.lit _) (Traced.var 0)
    (Traced.var 1) (Traced.var 2) i).gradOk

/-- the hypotheses are met: ages 1, 10, 100, 1000 Myr -/
example : ∃ a : Fin 4 → ℝ, a 0 ≤ -3 ∧ -2 ≤ a (Fin.last 3) ∧ ∀ i : Fin 3, a i.succ - a i.castSucc < 2 :=
  ⟨![-3, -2, -1, 0], by simp, by simp, by intro i; fin_cases i <;> simp <;> norm_num⟩

/-! ## C105: cosmology -/

section cosmo
variable {z O v u h : (ι → ℝ) → ℝ} {z' O' v' u' h' : Rv ι}

omit [DecidableEq ι] in
/-- C105: for a physical matter density, non-zero `h` and every redshift above -1 (zero included) the gradients of the distances, of the lookback time, of the age
and of the critical density are finite and exact with respect to redshift, matter density, `w0`, `wa` and `h`. -/
theorem C105_cosmology_grad (hz' : Traced True z' z θ) (hO' : Traced True O' O θ) (hv : Traced True v' v θ) (hu : Traced True u' u θ)
    (hh' : Traced True h' h θ) (hz : -1 < z θ) (hO : PhysicalOm (O θ)) (hh : h θ ≠ 0) :
    Traced True (Gen.comoving_distance_to_z z' O' v' u' h') (fun θ => FlatWcdm.comoving_distance_to_z (z θ) (O θ) (v θ) (u θ) (h θ)) θ ∧
    Traced True (Gen.luminosity_distance_to_z z' O' v' u' h') (fun θ => FlatWcdm.luminosity_distance_to_z (z θ) (O θ) (v θ) (u θ) (h θ)) θ ∧
    Traced True (Gen.angular_diameter_distance_to_z z' O' v' u' h')
      (fun θ => FlatWcdm.angular_diameter_distance_to_z (z θ) (O θ) (v θ) (u θ) (h θ)) θ ∧
    Traced True (Gen.lookback_to_z z' O' v' u' h') (fun θ => FlatWcdm.lookback_to_z (z θ) (O θ) (v θ) (u θ) (h θ)) θ ∧
    Traced True (Gen.age_at_z_kern z' O' v' u' h') (fun θ => FlatWcdm.age_at_z_kern (z θ) (O θ) (v θ) (u θ) (h θ)) θ ∧
    Traced True (Gen.rho_crit z' O' v' u' h') (fun θ => FlatWcdm.rho_crit (z θ) (O θ) (v θ) (u θ) (h θ)) θ ∧
    Traced True (Gen.virial_dynamical_time z' O' v' u' h')
      (fun θ => FlatWcdm.virial_dynamical_time (fun _ : Fin 1 => z θ) (O θ) (v θ) (u θ) (h θ) 0) θ :=
  ⟨traced_comoving hz' hO' hv hu hh' hz hO hh, traced_lumdist hz' hO' hv hu hh' hz hO hh, traced_angdist hz' hO' hv hu hh' hz hO hh,
    traced_lookback hz' hO' hv hu hh' hz hO hh, traced_age hz' hO' hv hu hh' hz hO hh, traced_rho_crit hz' hO' hv hu hh' hz hO,
    traced_virial hz' hO' hv hu hh' hz hO hh⟩

omit [DecidableEq ι] in
/-- C105: the distance modulus, at positive redshift. -/
theorem C105_distance_modulus_grad (hz' : Traced True z' z θ) (hO' : Traced True O' O θ) (hv : Traced True v' v θ) (hu : Traced True u' u θ)
    (hh' : Traced True h' h θ) (hz : 0 < z θ) (hO : PhysicalOm (O θ)) (hh : 0 < h θ) :
    Traced True (Gen.distance_modulus_to_z z' O' v' u' h') (fun θ => FlatWcdm.distance_modulus_to_z (z θ) (O θ) (v θ) (u θ) (h θ)) θ :=
  traced_dmod hz' hO' hv hu hh' hO hz hh

/-- C105: in particular `jax.grad` of the luminosity distance and of the age with respect to all five arguments, the redshift zero included. -/
theorem C105_cosmology_jax_grad (z Om0 w0 wa h : ℝ) (hz : -1 < z) (hO : PhysicalOm Om0) (hh : h ≠ 0) :
    GradOk True
      (Gen.luminosity_distance_to_z (Rv.var (0 : Fin 5) (fin z)) (Rv.var 1 (fin Om0)) (Rv.var 2 (fin w0)) (Rv.var 3 (fin wa)) (Rv.var 4 (fin h)))
      (fun θ => FlatWcdm.luminosity_distance_to_z (θ 0) (θ 1) (θ 2) (θ 3) (θ 4)) ![z, Om0, w0, wa, h] ∧
    GradOk True
      (Gen.age_at_z_kern (Rv.var (0 : Fin 5) (fin z)) (Rv.var 1 (fin Om0)) (Rv.var 2 (fin w0)) (Rv.var 3 (fin wa)) (Rv.var 4 (fin h)))
      (fun θ => FlatWcdm.age_at_z_kern (θ 0) (θ 1) (θ 2) (θ 3) (θ 4)) ![z, Om0, w0, wa, h] := by
  have H := C105_cosmology_grad (θ := ![z, Om0, w0, wa, h]) (Traced.var 0) (Traced.var 1) (Traced.var 2) (Traced.var 3) (Traced.var 4) hz hO hh
  exact ⟨H.2.1.gradOk, H.2.2.2.2.1.gradOk⟩

example : (-1:ℝ) < 0 ∧ PhysicalOm FlatWcdm.PLANCK15.Om0 ∧ FlatWcdm.PLANCK15.h ≠ 0 :=
  ⟨by norm_num, ⟨by norm_num [FlatWcdm.PLANCK15], by norm_num [FlatWcdm.PLANCK15]⟩, by norm_num [FlatWcdm.PLANCK15]⟩

end cosmo

end Dsps.Props

namespace Dsps.Props
open Rev XF Dsps.Lemmas Dsps.Constants Spec

section
attribute [local instance] Jnp.Dtype.float64
theorem case_lum_pos (i : Fin 3) : 0 < caseLum i := by fin_cases i <;> norm_num [caseLum]
/-- C103 applied to the filter and spectrum of the examples of C36, at redshift 1/2 -/
example := C103_rest_mag_grad (n := 1) (m := 2) (θ := caseLum) (W := fun _ => caseWave) (L := fun θ => θ) (fw := fun _ => caseFW)
  (ft := fun _ => caseFT) (fun _ => Traced.lit _) (fun i => Traced.var i) (fun _ => Traced.lit _) (fun _ => Traced.lit _) caseFW_ne
  case_ab.ne' case_flux
example := C103_rest_flux_grad (n := 1) (m := 2) (θ := caseLum) (W := fun _ => caseWave) (L := fun θ => θ) (fw := fun _ => caseFW)
  (ft := fun _ => caseFT) (fun _ => Traced.lit _) (fun i => Traced.var i) (fun _ => Traced.lit _) (fun _ => Traced.lit _) caseFW_ne
  case_ab.ne'
example := C103_obs_mag_grad (n := 1) (m := 2) (θ := ![1 / 2, 0.3]) (W := fun _ => caseWave) (L := fun _ => caseLum) (fw := fun _ => caseFW)
  (ft := fun _ => caseFT) (z := fun θ => θ 0) (O := fun θ => θ 1) (v := fun _ => -1) (u := fun _ => 0) (h := fun _ => 0.7)
  (fun _ => Traced.lit _) (fun _ => Traced.lit _) (fun _ => Traced.lit _) (fun _ => Traced.lit _) (Traced.var 0) (Traced.var 1)
  (Traced.lit _) (Traced.lit _) (Traced.lit _) caseFW_ne case_obs_flux (by norm_num) ⟨by norm_num, by norm_num⟩ (by norm_num)
example := C103_rest_mag_jax_grad (n := 1) (m := 2) caseWave caseLum caseFW caseFT caseFW_ne case_ab.ne' case_flux
example := C103_obs_mag_jax_grad (n := 1) (m := 2) caseWave caseLum caseFW caseFT (1 / 2) 0.3 (-1) 0 0.7 caseFW_ne case_obs_flux (by norm_num)
  case_Om (by norm_num)
example := C103_obs_mag_redshift_grad (n := 1) (m := 2) caseWave caseLum caseFW caseFT (1 / 2) 0.3 (-1) 0 0.7 caseFW_ne case_obs_flux
  (by norm_num) case_Om (by norm_num)
example := C103_obs_mag_grad_covered (n := 1) (m := 2) caseWave_mono.monotone case_lum_pos case_good case_ab (z := 1 / 2) (Om0 := 0.3)
  (w0 := -1) (wa := 0) (h := 0.7) (by norm_num) case_Om (by norm_num) caseFW_ne case_cover_z
/-- C104 and C105 applied -/
example (i : Fin 4) := C104_bursty_grad (θ := ![-2, 6, 7.5]) (S := fun _ => ![0.1, 0.2, 0.3, 0.4]) (a := fun _ => ![-3, -2, -1, 0])
  (f := fun θ => θ 0) (p := fun θ => θ 1) (q := fun θ => θ 2) (fun _ => Traced.lit _) (fun _ => Traced.lit _) (Traced.var 0) (Traced.var 1)
  (Traced.var 2) (by simp; norm_num) i
example (i : Fin 4) := C104_bursty_u_grad (n := 3) (θ := ![-2, 6, 7.5]) (S := fun _ => ![0.1, 0.2, 0.3, 0.4]) (a := fun _ => ![-3, -2, -1, 0])
  (f := fun θ => θ 0) (p := fun θ => θ 1) (q := fun θ => θ 2) (fun _ => Traced.lit _) (fun _ => Traced.lit _) (Traced.var 0) (Traced.var 1)
  (Traced.var 2) i
example := C105_cosmology_grad (θ := ![0.5, 0.3, -1, 0, 0.7]) (z := fun θ => θ 0) (O := fun θ => θ 1) (v := fun θ => θ 2) (u := fun θ => θ 3)
  (h := fun θ => θ 4) (Traced.var 0) (Traced.var 1) (Traced.var 2) (Traced.var 3) (Traced.var 4) (by norm_num) case_Om (by simp; norm_num)
example := C105_distance_modulus_grad (θ := ![0.5, 0.3, -1, 0, 0.7]) (z := fun θ => θ 0) (O := fun θ => θ 1) (v := fun θ => θ 2) (u := fun θ => θ 3)
  (h := fun θ => θ 4) (Traced.var 0) (Traced.var 1) (Traced.var 2) (Traced.var 3) (Traced.var 4) (by norm_num) case_Om (by simp; norm_num)
example := C105_cosmology_jax_grad 0.5 0.3 (-1) 0 0.7 (by norm_num) case_Om (by norm_num)
end

end Dsps.Props
