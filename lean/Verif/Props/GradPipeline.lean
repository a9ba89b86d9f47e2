import Verif.Props.GradMore
import Verif.Cases

/-! Property C109: gradients of the whole forward model, from the star formation history to the observed magnitude. -/
namespace Dsps.Props
open Rev XF Dsps.Lemmas Dsps.Constants Spec Filter Topology
open Dsps.StellarAgeWeights (get_lg_age_bin_edges)

variable {ι : Type} [Fintype ι] {n m k w p : ℕ}

/-- The forward model of the documentation: rest-frame SED of the galaxy, dimmed by dust, as a magnitude at redshift `z`.  Spelled out with the functions of
the real model (`Verif/Model`). -/
noncomputable def galaxyMag [Jnp.Dtype] (t S : Fin (n + 2) → ℝ) (gal_lgmet scatter av : ℝ) (ssp_lgmet : Fin (k + 3) → ℝ) (ssp_lg_age : Fin (m + 3) → ℝ)
    (wave : Fin (w + 2) → ℝ) (ssp_flux : Fin (k + 3) → Fin (m + 3) → Fin (w + 2) → ℝ) (t_obs sfr_min : ℝ) (k_lambda : Fin (w + 2) → ℝ)
    (fw ft : Fin (p + 1) → ℝ) (z Om0 w0 wa h : ℝ) : ℝ :=
  Photometry.calc_obs_mag wave
    (fun l => (SspWeights.calc_rest_sed_sfh_table_lognormal_mdf t S gal_lgmet scatter ssp_lgmet ssp_lg_age ssp_flux t_obs sfr_min).rest_sed l *
      Dust.frac_transmission_from_k_lambda (k_lambda l) av 0) fw ft z Om0 w0 wa h

/-- The same program on an abstract float type. -/
noncomputable def Gen.galaxyMag [Jnp.Dtype] {α : Type} [Flt α] (t S : Fin (n + 2) → α) (gal_lgmet scatter av : α) (ssp_lgmet : Fin (k + 3) → α)
    (ssp_lg_age : Fin (m + 3) → α) (wave : Fin (w + 2) → α) (ssp_flux : Fin (k + 3) → Fin (m + 3) → Fin (w + 2) → α) (t_obs sfr_min : α)
    (k_lambda : Fin (w + 2) → α) (fw ft : Fin (p + 1) → α) (z Om0 w0 wa h : α) : α :=
  Gen.calc_obs_mag wave
    (fun l => Gen.calc_rest_sed_sfh_table_lognormal_mdf t S gal_lgmet scatter ssp_lgmet ssp_lg_age ssp_flux t_obs sfr_min l *
      Gen.frac_transmission_from_k_lambda (k_lambda l) av (Flt.lit 0)) fw ft z Om0 w0 wa h

theorem transmission_pos (k av : ℝ) : 0 < Dust.frac_transmission_from_k_lambda k av 0 := by
  unfold Dust.frac_transmission_from_k_lambda
  simp only [zero_add, sub_zero, one_mul]
  positivity

section
variable [Jnp.Dtype] (t : Fin (n + 2) → ℝ) (ssp_lgmet : Fin (k + 3) → ℝ) (ssp_lg_age : Fin (m + 3) → ℝ) (wave : Fin (w + 2) → ℝ)
    (ssp_flux : Fin (k + 3) → Fin (m + 3) → Fin (w + 2) → ℝ) (t_obs sfr_min : ℝ) (k_lambda : Fin (w + 2) → ℝ) (fw ft : Fin (p + 1) → ℝ) (z Om0 w0 wa h : ℝ)

/-- **Specification.**  Inputs of the documented kind: increasing resolved time table, mildly spaced age and metallicity grids whose bins meet the table, positive SSP spectra
that cover the redshifted filter, a dust curve that is nowhere negative, a filter that transmits something, positive redshift and a physical cosmology. -/
structure GalaxyInputs : Prop where
  ht : StrictMono t
  h0 : 0.001 < t 0
  hs : 0 < sfr_min
  hr : Jnp.Resolved fun i => Real.logb 10 (t i)
  hage : MildlySpaced ssp_lg_age
  hmet : MildlySpaced ssp_lgmet
  hlo : -10 < ssp_lgmet 0
  hhi : ssp_lgmet (Fin.last (k + 2)) < 10
  hyoung : t 0 < t_obs - (10:ℝ) ^ (get_lg_age_bin_edges ssp_lg_age 0)
  hold : t_obs - (10:ℝ) ^ (get_lg_age_bin_edges ssp_lg_age (Fin.last (m + 3))) < t (Fin.last (n + 1))
  hflux : ∀ i j l, 0 < ssp_flux i j l
  hk : ∀ l, 0 ≤ k_lambda l
  hw : Monotone wave
  hf : GoodFilter fw ft
  hA : 0 < Photometry.flux_ab0_at_10pc fw ft
  hf0 : ∀ i, fw i ≠ 0
  hz : 0 < z
  hO : PhysicalOm Om0
  hh : 0 < h
  hcov : ∀ i, wave 0 * (1 + z) ≤ fw i ∧ fw i ≤ wave (Fin.last (w + 1)) * (1 + z)

variable {t ssp_lgmet ssp_lg_age wave ssp_flux t_obs sfr_min k_lambda fw ft z Om0 h}

/-- the SED of a galaxy made of positive spectra is positive -/
theorem sed_pos (H : GalaxyInputs t ssp_lgmet ssp_lg_age wave ssp_flux t_obs sfr_min k_lambda fw ft z Om0 h) (S : Fin (n + 2) → ℝ) (x : ℝ) {sig : ℝ}
    (hpos : 0 < sig) (l : Fin (w + 2)) :
    0 < (SspWeights.calc_rest_sed_sfh_table_lognormal_mdf t S x sig ssp_lgmet ssp_lg_age ssp_flux t_obs sfr_min).rest_sed l := by
  have hprob := C23_joint_weights_lognormal_inputs t S x sig ssp_lgmet ssp_lg_age t_obs H.ht H.h0 H.hr H.hage H.hyoung H.hold hpos H.hmet H.hlo H.hhi
  obtain ⟨ij, hij⟩ := Finite.exists_min fun ij : Fin (k + 3) × Fin (m + 3) => ssp_flux ij.1 ij.2 l
  obtain ⟨ij', hij'⟩ := Finite.exists_max fun ij : Fin (k + 3) × Fin (m + 3) => ssp_flux ij.1 ij.2 l
  have := ((C25_sed_between t S S x sig ssp_lgmet ssp_lg_age ssp_flux t_obs sfr_min l _ _ (fun i j => hij (i, j))
    (fun i j => hij' (i, j))).1 hprob).1
  exact lt_of_lt_of_le (mul_pos (massFormed_pos _) (H.hflux _ _ _)) this

/-- C109: the whole forward model, for star formation rates, metallicity, scatter and `av` that come from any differentiable model: the gradient of the observed magnitude is
finite whatever their values with positive scatter — also for quenched and negative star formation rates and
for `av ≤ 0`; and it is the exact gradient unless a star formation rate equals a floor or `av ≤ 0`. -/
theorem C109_galaxy_mag_grad (H : GalaxyInputs t ssp_lgmet ssp_lg_age wave ssp_flux t_obs sfr_min k_lambda fw ft z Om0 h)
    {θ : ι → ℝ} {S : (ι → ℝ) → Fin (n + 2) → ℝ} {x sig av : (ι → ℝ) → ℝ} {S' : Fin (n + 2) → Rv ι} {x' sig' av' : Rv ι}
    (hS : ∀ i, Traced True (S' i) (fun θ => S θ i) θ) (hx : Traced True x' x θ) (hsig : Traced True sig' sig θ) (hav : Traced True av' av θ)
    (hpos : 0 < sig θ) :
    Traced ((∀ i, S θ i ≠ SFR_MIN ∧ S θ i ≠ sfr_min) ∧ 0 < av θ)
      (Gen.galaxyMag (fun j => Flt.lit (t j)) S' x' sig' av' (fun j => Flt.lit (ssp_lgmet j)) (fun j => Flt.lit (ssp_lg_age j))
        (fun j => Flt.lit (wave j)) (fun i j l => Flt.lit (ssp_flux i j l)) (Flt.lit t_obs) (Flt.lit sfr_min) (fun j => Flt.lit (k_lambda j))
        (fun j => Flt.lit (fw j)) (fun j => Flt.lit (ft j)) (Flt.lit z) (Flt.lit Om0) (Flt.lit w0) (Flt.lit wa) (Flt.lit h))
      (fun θ => galaxyMag t (S θ) (x θ) (sig θ) (av θ) ssp_lgmet ssp_lg_age wave ssp_flux t_obs sfr_min k_lambda fw ft z Om0 w0 wa h) θ := by
  have hmono := (C05_edges_bracket_partial ssp_lgmet H.hmet _ _ H.hlo H.hhi).1
  have hsed := fun l => (C102_sed_grad (F := fun _ => ssp_flux) (t := fun _ => t) (z := fun _ => ssp_lgmet) (A := fun _ => ssp_lg_age) (T := fun _ => t_obs)
    (c := fun _ => sfr_min) (fun _ => Traced.lit _) hS hx hsig (fun _ => Traced.lit _) (fun _ => Traced.lit _) (fun _ _ _ => Traced.lit _)
    (Traced.lit _) (Traced.lit _) H.ht H.h0 H.hs H.hr H.hage.1 H.hyoung H.hold hpos hmono l).weaken
    (s' := (∀ i, S θ i ≠ SFR_MIN ∧ S θ i ≠ sfr_min) ∧ 0 < av θ)
    fun h => ⟨⟨fun i => (h.1 i).1, Or.inl ⟨Fixed.const _, Fixed.const _, Fixed.const _⟩⟩, fun i => (h.1 i).2,
      Or.inl ⟨Fixed.const _, Fixed.const _⟩⟩
  have hdust := fun l => (traced_transmission (κ := fun _ => k_lambda l) (fl0 := fun _ => 0) (Traced.lit (k_lambda l)) hav (Traced.lit 0)).weaken
    (s' := (∀ i, S θ i ≠ SFR_MIN ∧ S θ i ≠ sfr_min) ∧ 0 < av θ) fun h => ⟨trivial, by
      right
      filter_upwards [(hav.continuousAt trivial).eventually_const_lt h.2] with y hy
      exact mul_nonneg (le_of_lt hy) (H.hk l)⟩
  have hfp := flux_pos_of_covered (lum := fun l => (SspWeights.calc_rest_sed_sfh_table_lognormal_mdf t (S θ) (x θ) (sig θ) ssp_lgmet ssp_lg_age ssp_flux t_obs
      sfr_min).rest_sed l * Dust.frac_transmission_from_k_lambda (k_lambda l) (av θ) 0) H.hw
      (fun l => mul_pos (sed_pos H (S θ) (x θ) hpos l) (transmission_pos _ _)) H.hf H.hA (z := z) (by linarith [H.hz]) H.hcov
  unfold Gen.galaxyMag galaxyMag
  exact (traced_calc_obs_mag (W := fun _ => wave) (L := fun θ l => (SspWeights.calc_rest_sed_sfh_table_lognormal_mdf t (S θ) (x θ) (sig θ) ssp_lgmet ssp_lg_age
      ssp_flux t_obs sfr_min).rest_sed l * Dust.frac_transmission_from_k_lambda (k_lambda l) (av θ) 0) (fw := fun _ => fw) (ft := fun _ => ft)
    (z := fun _ => z) (O := fun _ => Om0) (v := fun _ => w0) (u := fun _ => wa) (h := fun _ => h)
    (fun _ => Traced.lit _) (fun l => (hsed l).mul (hdust l)) (fun _ => Traced.lit _) (fun _ => Traced.lit _) (Traced.lit z) (Traced.lit Om0)
    (Traced.lit w0) (Traced.lit wa) (Traced.lit h) H.hf0 hfp H.hz H.hO H.hh).weaken fun h => ⟨h, Or.inl ⟨Fixed.const _, Fixed.const _⟩⟩

/-- C109: in particular `jax.grad` with respect to all star formation rates (`inl i`), metallicity, scatter and `av` (`inr 0, 1, 2`). -/
theorem C109_galaxy_mag_jax_grad (H : GalaxyInputs t ssp_lgmet ssp_lg_age wave ssp_flux t_obs sfr_min k_lambda fw ft z Om0 h)
    (S : Fin (n + 2) → ℝ) (gal_lgmet scatter av : ℝ) (hpos : 0 < scatter) :
    GradOk ((∀ i, S i ≠ SFR_MIN ∧ S i ≠ sfr_min) ∧ 0 < av)
      (Gen.galaxyMag (fun j => Flt.lit (t j)) (fun j => Rv.var (Sum.inl j) (fin (S j))) (Rv.var (Sum.inr (0 : Fin 3)) (fin gal_lgmet))
        (Rv.var (Sum.inr 1) (fin scatter)) (Rv.var (Sum.inr 2) (fin av)) (fun j => Flt.lit (ssp_lgmet j)) (fun j => Flt.lit (ssp_lg_age j))
        (fun j => Flt.lit (wave j)) (fun i j l => Flt.lit (ssp_flux i j l)) (Flt.lit t_obs) (Flt.lit sfr_min) (fun j => Flt.lit (k_lambda j))
        (fun j => Flt.lit (fw j)) (fun j => Flt.lit (ft j)) (Flt.lit z) (Flt.lit Om0) (Flt.lit w0) (Flt.lit wa) (Flt.lit h))
      (fun θ : Fin (n + 2) ⊕ Fin 3 → ℝ => galaxyMag t (fun j => θ (Sum.inl j)) (θ (Sum.inr 0)) (θ (Sum.inr 1)) (θ (Sum.inr 2)) ssp_lgmet ssp_lg_age
        wave ssp_flux t_obs sfr_min k_lambda fw ft z Om0 w0 wa h)
      (Sum.elim S ![gal_lgmet, scatter, av]) :=
  (C109_galaxy_mag_grad w0 wa H (θ := Sum.elim S ![gal_lgmet, scatter, av]) (S := fun θ j => θ (Sum.inl j)) (fun j => Traced.var (Sum.inl j))
    (Traced.var (Sum.inr 0)) (Traced.var (Sum.inr 1)) (Traced.var (Sum.inr 2)) hpos).gradOk

end

/-- the hypotheses are met -/
theorem case_galaxy_z : ∃ (t : Fin 3 → ℝ) (A : Fin 3 → ℝ) (wave : Fin 3 → ℝ) (fw ft : Fin 2 → ℝ),
    @GalaxyInputs 1 0 0 1 1 Jnp.Dtype.float64 t (fun i => (-2:ℝ) + i * 1) A wave (fun _ _ _ => 1) 14.5 1e-14 (fun _ => 4.05) fw ft 1 0.3 0.7 := by
  let _ := Jnp.Dtype.float64
  have hmild := mildlySpaced_uniform (n := 0) (-2) 1 one_pos
  have hm := C17_age_edges_mono _ hmild
  have h4 : (10:ℝ) ^ (0.5:ℝ) < 4 := by
    rw [show (0.5:ℝ) = 1 / 2 by norm_num, ← Real.sqrt_eq_rpow, Real.sqrt_lt' (by norm_num)]; norm_num
  have hb : ∀ e, (10:ℝ) ^ (get_lg_age_bin_edges (fun i : Fin 3 => (-2:ℝ) + i * 1) e) < 4 := fun e =>
    lt_of_le_of_lt (Real.rpow_le_rpow_of_exponent_le (by norm_num) ((hm.monotone (Fin.le_last e)).trans age_edges_example.2.le)) h4
  have hp : ∀ e, 0 < (10:ℝ) ^ (get_lg_age_bin_edges (fun i : Fin 3 => (-2:ℝ) + i * 1) e) := fun e => by positivity
  refine ⟨fun i => (10:ℝ) ^ (i : ℕ), fun i => (-2:ℝ) + i * 1, ![1000, 2000, 5000], ![4500, 6000], ![1, 1],
    { ht := strictMono_pow10 3, h0 := by norm_num, hs := by norm_num, hr := resolved_pow10 1, hage := hmild, hmet := hmild, hlo := by norm_num,
      hhi := by norm_num, hyoung := ?_, hold := ?_, hflux := fun _ _ _ => one_pos, hk := fun _ => by norm_num, hw := ?_, hf := ?_, hA := ?_, hf0 := ?_,
      hz := one_pos, hO := ⟨by norm_num, by norm_num⟩, hh := by norm_num, hcov := ?_ }⟩
  · have := hb 0; norm_num at this ⊢; linarith
  · have := hp (Fin.last 3); norm_num at this ⊢; linarith
  · rw [Fin.monotone_iff_le_succ]; intro i; fin_cases i <;> simp <;> norm_num
  · refine ⟨?_, ?_, ?_⟩
    · rw [Fin.monotone_iff_le_succ]; intro i; fin_cases i; simp; norm_num
    · intro i; fin_cases i <;> simp
    · intro i; fin_cases i <;> simp
  · unfold Photometry.flux_ab0_at_10pc Photometry.AB0; simp only; rw [trapz_eq]; simp [Fin.sum_univ_succ]; norm_num
  · intro i; fin_cases i <;> simp
  · intro i; fin_cases i <;> simp <;> norm_num

theorem case_galaxy : ∃ (t : Fin 3 → ℝ) (A z : Fin 3 → ℝ) (wave : Fin 3 → ℝ) (fw ft : Fin 2 → ℝ),
    @GalaxyInputs 1 0 0 1 1 Jnp.Dtype.float64 t z A wave (fun _ _ _ => 1) 14.5 1e-14 (fun _ => 4.05) fw ft 1 0.3 0.7 := by
  obtain ⟨t, A, wave, fw, ft, h⟩ := case_galaxy_z
  exact ⟨t, A, _, wave, fw, ft, h⟩

end Dsps.Props

namespace Dsps.Props
open Rev XF Dsps.Lemmas Dsps.Constants Spec

section
attribute [local instance] Jnp.Dtype.float64
/-- C109 applied to those inputs -/
example (w0 wa : ℝ) := C109_galaxy_mag_jax_grad (w0 := w0) (wa := wa)
  case_galaxy.choose_spec.choose_spec.choose_spec.choose_spec.choose_spec.choose_spec ![3, 1, 2] (-2.6) 0.2 0.5 (by norm_num)
example (w0 wa : ℝ) := C109_galaxy_mag_grad (w0 := w0) (wa := wa)
  case_galaxy.choose_spec.choose_spec.choose_spec.choose_spec.choose_spec.choose_spec (θ := ![-2.6, 0.2, 0.5]) (S := fun _ => ![3, 1, 2])
  (x := fun θ => θ 0) (sig := fun θ => θ 1) (av := fun θ => θ 2) (fun _ => Traced.lit _) (Traced.var 0) (Traced.var 1) (Traced.var 2)
  (by norm_num)
end

end Dsps.Props
