import Verif.Props.GradPipeline
import Verif.Props.ForwardMode

/-! Property C162: gradients of a galaxy population model built from all parts of the package: smooth history plus burst in unbounded parameters, metallicity from the
mass-metallicity relation in unbounded parameters, dust law with free slope and bump, observed magnitude; and of the model with a metallicity history. -/
namespace Dsps.Props
open Rev XF Dsps.Lemmas Dsps.Constants Spec Filter Topology
open Dsps.StellarAgeWeights (get_lg_age_bin_edges)

variable {ι : Type} [Fintype ι] {n m k w p : ℕ}

/-- A population model, spelled out with the functions of the real model (`Verif/Model`): the mass formed by `t_obs` gives the metallicity through the mass-metallicity
relation with unbounded parameters `um`; a burst with unbounded parameters `ub` is added to the smooth age weights; the spectrum is dimmed by the Salim+18 law with bump
amplitude `B`, slope `δ` and `av`; the result is the observed magnitude. -/
noncomputable def populationMag [Jnp.Dtype] (t S : Fin (n + 2) → ℝ) (ub : Fin 3 → ℝ) (um : Fin 9 → ℝ) (scatter av B δ : ℝ) (ssp_lgmet : Fin (k + 3) → ℝ)
    (ssp_lg_age : Fin (m + 3) → ℝ) (wave : Fin (w + 2) → ℝ) (ssp_flux : Fin (k + 3) → Fin (m + 3) → Fin (w + 2) → ℝ) (t_obs sfr_min : ℝ)
    (fw ft : Fin (p + 1) → ℝ) (z Om0 w0 wa h : ℝ) : ℝ :=
  let mass := SspWeights.mstar_obs t S t_obs sfr_min
  let lgmet := Umzr.mzr_model (Jnp.log10 mass) t_obs (Umzr.get_bounded_mzr_params (Umzr.MZRUParams.ofArray um))
  let lgmet_weights := MetallicityWeights.calc_lgmet_weights_from_lognormal_mdf lgmet scatter ssp_lgmet
  let smooth := StellarAgeWeights.calc_age_weights_from_sfh_table t S ssp_lg_age t_obs SFR_MIN
  let age_weights := Diffburst.calc_bursty_age_weights_from_u_params ⟨ub 0, ub 1, ub 2⟩ smooth ssp_lg_age
  let sed := fun l => SspWeights.sum2 (fun i j => ssp_flux i j l * (lgmet_weights i * age_weights j)) * mass
  let trans := fun l => Dust.frac_transmission_from_k_lambda (Dust.sbl18_k_lambda (wave l / 10000) B δ 0.2175 0.035) av 0
  Photometry.calc_obs_mag wave (fun l => sed l * trans l) fw ft z Om0 w0 wa h

/-- The same program on an abstract float type. -/
noncomputable def Gen.populationMag [Jnp.Dtype] {α : Type} [Flt α] (t S : Fin (n + 2) → α) (ub : Fin 3 → α) (um : Fin 9 → α) (scatter av B δ : α)
    (ssp_lgmet : Fin (k + 3) → α) (ssp_lg_age : Fin (m + 3) → α) (wave : Fin (w + 2) → α) (ssp_flux : Fin (k + 3) → Fin (m + 3) → Fin (w + 2) → α)
    (t_obs sfr_min : α) (fw ft : Fin (p + 1) → α) (z Om0 w0 wa h : α) : α :=
  let mass := Gen.mstar_obs t S t_obs sfr_min
  let lgmet := Gen.umzr_model (Flt.log10 mass) t_obs (Gen.get_bounded_mzr_params um)
  let lgmet_weights := Gen.calc_lgmet_weights_from_lognormal_mdf lgmet scatter ssp_lgmet
  let smooth := Gen.calc_age_weights_from_sfh_table t S ssp_lg_age t_obs (Flt.lit SFR_MIN)
  let age_weights := Gen.calc_bursty_age_weights_from_u_params (ub 0) (ub 1) (ub 2) smooth ssp_lg_age
  let sed := fun l => Gen.sum2 (fun i j => ssp_flux i j l * (lgmet_weights i * age_weights j)) * mass
  let trans := fun l => Gen.frac_transmission_from_k_lambda (Gen.sbl18_k_lambda (wave l / Flt.lit 10000) B δ (Flt.lit 0.2175) (Flt.lit 0.035)) av (Flt.lit 0)
  Gen.calc_obs_mag wave (fun l => sed l * trans l) fw ft z Om0 w0 wa h

section
variable [Jnp.Dtype] {t : Fin (n + 2) → ℝ} {ssp_lgmet : Fin (k + 3) → ℝ} {ssp_lg_age : Fin (m + 3) → ℝ} {wave : Fin (w + 2) → ℝ}
    {ssp_flux : Fin (k + 3) → Fin (m + 3) → Fin (w + 2) → ℝ} {t_obs sfr_min : ℝ} {k_lambda : Fin (w + 2) → ℝ} {fw ft : Fin (p + 1) → ℝ} {z Om0 w0 wa h : ℝ}

/-- **Specification.**  Where the population model has no kink: no star formation rate at a floor, the unclipped evolution term of the mass-metallicity relation not zero,
at least one age of the grid inside the burst, the unclipped dust curve nowhere zero, `av ≠ 0`. -/
def PopulationSmooth (t S : Fin (n + 2) → ℝ) (ub : Fin 3 → ℝ) (um : Fin 9 → ℝ) (av B δ : ℝ) (ssp_lg_age : Fin (m + 3) → ℝ) (wave : Fin (w + 2) → ℝ)
    (t_obs sfr_min : ℝ) : Prop :=
  (∀ i, S i ≠ SFR_MIN ∧ S i ≠ sfr_min) ∧
  (let q := Umzr.get_bounded_mzr_params (Umzr.MZRUParams.ofArray um)
   umzrRaw (Jnp.log10 (SspWeights.mstar_obs t S t_obs sfr_min)) t_obs q.c0_y_at_tlook_c q.c1_y_at_tlook_c q.c0_early_time_slope q.c1_early_time_slope ≠ 0) ∧
  (let b := Diffburst.get_params_from_u_params ⟨ub 0, ub 1, ub 2⟩
   ∃ i, ssp_lg_age i + 9 ∈ BurstSupport b.lgyr_peak b.lgyr_max) ∧
  (∀ l, sbl18Raw (wave l / 10000) B δ 0.2175 0.035 ≠ 0) ∧ av ≠ 0

/-- burst and smooth part together have positive weight -/
theorem bursty_sum_pos (u : Diffburst.BurstUParams) (smooth lg_age : Fin (m + 1) → ℝ) (hs : IsProbVector smooth) :
    (∀ i, 0 ≤ Diffburst.calc_bursty_age_weights_from_u_params u smooth lg_age i) ∧
      0 < ∑ i, Diffburst.calc_bursty_age_weights_from_u_params u smooth lg_age i := by
  classical
  have hb := C27_burst_bounds u
  obtain ⟨⟨a1, a2⟩, ⟨b1, b2⟩, c1, c2⟩ := hb
  have hC := C30_bursty_weights _ (by linarith) (by linarith) smooth lg_age hs
  refine ⟨hC.1, ?_⟩
  have hfb : (10:ℝ) ^ (Diffburst.get_params_from_u_params u).lgfburst < 1 := Real.rpow_lt_one_of_one_lt_of_neg (by norm_num) (by linarith)
  have hfb0 : 0 < (10:ℝ) ^ (Diffburst.get_params_from_u_params u).lgfburst := by positivity
  have := hC.2.2
  unfold Diffburst.calc_bursty_age_weights_from_u_params
  rw [this]
  split_ifs <;> simp <;> linarith


theorem ofArray_toArray (q : Umzr.MZRParams) : Umzr.MZRParams.ofArray q.toArray = q := rfl

/-- C162: the population model: for star formation rates, burst, metallicity and dust parameters and scatter that come from any differentiable model the gradient of the
observed magnitude is finite whatever their values (positive scatter), and exact away from the kinks of `PopulationSmooth`.  The dust curve of `GalaxyInputs` plays no role. -/
theorem C162_population_grad (H : GalaxyInputs t ssp_lgmet ssp_lg_age wave ssp_flux t_obs sfr_min (fun _ => 0) fw ft z Om0 h) (hwave : ∀ l, 0 < wave l)
    {θ : ι → ℝ} {S : (ι → ℝ) → Fin (n + 2) → ℝ} {ub : (ι → ℝ) → Fin 3 → ℝ} {um : (ι → ℝ) → Fin 9 → ℝ} {sig av B δ : (ι → ℝ) → ℝ}
    {S' : Fin (n + 2) → Rv ι} {ub' : Fin 3 → Rv ι} {um' : Fin 9 → Rv ι} {sig' av' B' δ' : Rv ι}
    (hS : ∀ i, Traced True (S' i) (fun θ => S θ i) θ) (hub : ∀ i, Traced True (ub' i) (fun θ => ub θ i) θ)
    (hum : ∀ i, Traced True (um' i) (fun θ => um θ i) θ) (hsig : Traced True sig' sig θ) (hav : Traced True av' av θ) (hB : Traced True B' B θ)
    (hδ : Traced True δ' δ θ) (hpos : 0 < sig θ) :
    Traced (PopulationSmooth t (S θ) (ub θ) (um θ) (av θ) (B θ) (δ θ) ssp_lg_age wave t_obs sfr_min)
      (Gen.populationMag (fun j => Flt.lit (t j)) S' ub' um' sig' av' B' δ' (fun j => Flt.lit (ssp_lgmet j)) (fun j => Flt.lit (ssp_lg_age j))
        (fun j => Flt.lit (wave j)) (fun i j l => Flt.lit (ssp_flux i j l)) (Flt.lit t_obs) (Flt.lit sfr_min)
        (fun j => Flt.lit (fw j)) (fun j => Flt.lit (ft j)) (Flt.lit z) (Flt.lit Om0) (Flt.lit w0) (Flt.lit wa) (Flt.lit h))
      (fun θ => populationMag t (S θ) (ub θ) (um θ) (sig θ) (av θ) (B θ) (δ θ) ssp_lgmet ssp_lg_age wave ssp_flux t_obs sfr_min fw ft z Om0 w0 wa h) θ := by
  set s := PopulationSmooth t (S θ) (ub θ) (um θ) (av θ) (B θ) (δ θ) ssp_lg_age wave t_obs sfr_min with hs
  have hSF : (0:ℝ) < SFR_MIN := by norm_num [SFR_MIN]
  have hmono := (C05_edges_bracket_partial ssp_lgmet H.hmet _ _ H.hlo H.hhi).1
  have hobs : 0 < t_obs := by
    have := Real.rpow_pos_of_pos (show (0:ℝ) < 10 by norm_num) (get_lg_age_bin_edges ssp_lg_age 0)
    have h0 := H.h0
    have h1 := H.hyoung
    norm_num at h0
    linarith
  -- mass and metallicity
  have hmass := (traced_mstar_obs (s := True) (t := fun _ => t) (T := fun _ => t_obs) (c := fun _ => sfr_min) (fun _ => Traced.lit _) hS (Traced.lit t_obs)
    (Traced.lit sfr_min) H.ht H.h0 H.hs hobs H.hr).weaken (s' := s) fun h => ⟨trivial, fun i => (h.1 i).2, Or.inl ⟨Fixed.const _, Fixed.const _⟩⟩
  have hM : ∀ S, 0 < SspWeights.mstar_obs t S t_obs sfr_min := fun S => by
    have e : SspWeights.mstar_obs t S t_obs sfr_min = massFormed t S sfr_min t_obs := by rw [massFormed_eq]; rfl
    rw [e]; exact massFormed_pos _
  have hq := TV.bounded_mzr (s := s) (p := um) (θ := θ) fun i => (hum i).weaken fun _ => trivial
  have hx := (traced_umzr (hmass.log10 (hM _)) (Traced.lit t_obs) hq).weaken (s' := s) fun h => ⟨h, Or.inl (Fixed.const _), h.2.1⟩
  have hx' : Traced s _ (fun θ => Umzr.mzr_model (Jnp.log10 (SspWeights.mstar_obs t (S θ) t_obs sfr_min)) t_obs
      (Umzr.get_bounded_mzr_params (Umzr.MZRUParams.ofArray (um θ)))) θ := hx.congr (funext fun θ => congrArg _ (ofArray_toArray _))
  have hmet := TV.lgmet_lognormal (z := fun _ => ssp_lgmet) hx' (hsig.weaken fun _ => trivial) (fun i => Traced.lit (ssp_lgmet i)) hpos (edges_const hmono)
  -- ages
  have hage := fun i => (C101_age_weights_grad (t := fun _ => t) (A := fun _ => ssp_lg_age) (T := fun _ => t_obs) (c := fun _ => SFR_MIN)
    (fun _ => Traced.lit _) hS (fun _ => Traced.lit _) (Traced.lit _) (Traced.lit SFR_MIN) H.ht H.h0 hSF H.hr H.hage.1 H.hyoung H.hold i).weaken
    (s' := s) fun h => ⟨fun i => (h.1 i).1, Or.inl ⟨Fixed.const _, Fixed.const _, Fixed.const _⟩⟩
  have hbur := fun i => (TV.bursty_u (s := s) (a := fun _ => ssp_lg_age) hage (fun i => Traced.lit (ssp_lg_age i)) ((hub 0).weaken fun _ => trivial)
    ((hub 1).weaken fun _ => trivial) ((hub 2).weaken fun _ => trivial) i).weaken (s' := s) fun h => ⟨h, h.2.2.1⟩
  have hsed := fun l => (traced_sum2 fun i j => (Traced.lit (s := s) (ssp_flux i j l)).mul ((hmet i).mul (hbur j))).mul hmass
  -- dust
  have hdust := fun l => (C107_attenuation_grad (u := fun _ => wave l / 10000) (x0 := fun _ => 0.2175) (γ := fun _ => 0.035) (fl0 := fun _ => 0)
    ((Traced.lit (wave l)).div (Traced.lit 10000) (by norm_num)) hB hδ (Traced.lit 0.2175) (Traced.lit 0.035) hav (Traced.lit 0)
    (div_pos (hwave l) (by norm_num)) (by norm_num)).1.weaken (s' := s) fun h => ⟨Or.inl (Fixed.const _), h.2.2.2.1 l, Or.inl h.2.2.2.2⟩
  have hsp := C17_age_weights_prob_mild_partial t (S θ) ssp_lg_age t_obs H.ht H.h0 H.hr H.hage H.hyoung H.hold
  have hmp := fun x => C21_lgmet_weights_prob_mild_partial x (sig θ) hpos ssp_lgmet H.hmet H.hlo H.hhi
  have hfp := flux_pos_of_covered (lum := fun l => SspWeights.sum2 (fun i j => ssp_flux i j l *
      (MetallicityWeights.calc_lgmet_weights_from_lognormal_mdf (Umzr.mzr_model (Jnp.log10 (SspWeights.mstar_obs t (S θ) t_obs sfr_min)) t_obs
        (Umzr.get_bounded_mzr_params (Umzr.MZRUParams.ofArray (um θ)))) (sig θ) ssp_lgmet i *
       Diffburst.calc_bursty_age_weights_from_u_params ⟨ub θ 0, ub θ 1, ub θ 2⟩ (StellarAgeWeights.calc_age_weights_from_sfh_table t (S θ) ssp_lg_age t_obs SFR_MIN)
        ssp_lg_age j)) * SspWeights.mstar_obs t (S θ) t_obs sfr_min *
      Dust.frac_transmission_from_k_lambda (Dust.sbl18_k_lambda (wave l / 10000) (B θ) (δ θ) 0.2175 0.035) (av θ) 0) H.hw
      (fun l => mul_pos (mul_pos ?_ (hM _)) (transmission_pos _ _)) H.hf H.hA (z := z) (by linarith [H.hz]) H.hcov
  · have hL : ∀ l, Traced s _ (fun θ => SspWeights.sum2 (fun i j => ssp_flux i j l *
      (MetallicityWeights.calc_lgmet_weights_from_lognormal_mdf (Umzr.mzr_model (Jnp.log10 (SspWeights.mstar_obs t (S θ) t_obs sfr_min)) t_obs
        (Umzr.get_bounded_mzr_params (Umzr.MZRUParams.ofArray (um θ)))) (sig θ) ssp_lgmet i *
       Diffburst.calc_bursty_age_weights_from_u_params ⟨ub θ 0, ub θ 1, ub θ 2⟩ (StellarAgeWeights.calc_age_weights_from_sfh_table t (S θ) ssp_lg_age t_obs SFR_MIN)
        ssp_lg_age j)) * SspWeights.mstar_obs t (S θ) t_obs sfr_min *
      Dust.frac_transmission_from_k_lambda (Dust.sbl18_k_lambda (wave l / 10000) (B θ) (δ θ) 0.2175 0.035) (av θ) 0) θ := fun l => (hsed l).mul (hdust l)
    have hT := (traced_calc_obs_mag (W := fun _ => wave) (L := fun θ l => SspWeights.sum2 (fun i j => ssp_flux i j l *
      (MetallicityWeights.calc_lgmet_weights_from_lognormal_mdf (Umzr.mzr_model (Jnp.log10 (SspWeights.mstar_obs t (S θ) t_obs sfr_min)) t_obs
        (Umzr.get_bounded_mzr_params (Umzr.MZRUParams.ofArray (um θ)))) (sig θ) ssp_lgmet i *
       Diffburst.calc_bursty_age_weights_from_u_params ⟨ub θ 0, ub θ 1, ub θ 2⟩ (StellarAgeWeights.calc_age_weights_from_sfh_table t (S θ) ssp_lg_age t_obs SFR_MIN)
        ssp_lg_age j)) * SspWeights.mstar_obs t (S θ) t_obs sfr_min *
      Dust.frac_transmission_from_k_lambda (Dust.sbl18_k_lambda (wave l / 10000) (B θ) (δ θ) 0.2175 0.035) (av θ) 0) (fw := fun _ => fw) (ft := fun _ => ft)
      (z := fun _ => z) (O := fun _ => Om0) (v := fun _ => w0) (u := fun _ => wa) (h := fun _ => h)
      (fun _ => Traced.lit _) hL (fun _ => Traced.lit _) (fun _ => Traced.lit _) (Traced.lit z) (Traced.lit Om0)
      (Traced.lit w0) (Traced.lit wa) (Traced.lit h) H.hf0 hfp H.hz H.hO H.hh).weaken (s' := s) fun h => ⟨h, Or.inl ⟨Fixed.const _, Fixed.const _⟩⟩
    unfold Gen.populationMag populationMag
    dsimp only
    convert hT using 7
  · -- the spectrum is positive
    rw [sum2_eq]
    have hbp := bursty_sum_pos ⟨ub θ 0, ub θ 1, ub θ 2⟩ _ ssp_lg_age hsp
    obtain ⟨i0, hi0⟩ : ∃ i, 0 < MetallicityWeights.calc_lgmet_weights_from_lognormal_mdf (Umzr.mzr_model (Jnp.log10 (SspWeights.mstar_obs t (S θ) t_obs sfr_min)) t_obs
        (Umzr.get_bounded_mzr_params (Umzr.MZRUParams.ofArray (um θ)))) (sig θ) ssp_lgmet i := by
      by_contra hc
      push Not at hc
      have h1 := (hmp (Umzr.mzr_model (Jnp.log10 (SspWeights.mstar_obs t (S θ) t_obs sfr_min)) t_obs
        (Umzr.get_bounded_mzr_params (Umzr.MZRUParams.ofArray (um θ))))).2
      have h2 := Finset.sum_nonpos fun i (_ : i ∈ Finset.univ) => hc i
      rw [h1] at h2
      norm_num at h2
    obtain ⟨j0, -, hj0⟩ := Finset.exists_lt_of_sum_lt (f := fun _ => (0:ℝ)) (by simpa using hbp.2)
    refine Finset.sum_pos' (fun i _ => Finset.sum_nonneg fun j _ => mul_nonneg (H.hflux _ _ _).le (mul_nonneg ((hmp _).1 i) (hbp.1 j))) ⟨i0, Finset.mem_univ _, ?_⟩
    exact Finset.sum_pos' (fun j _ => mul_nonneg (H.hflux _ _ _).le (mul_nonneg hi0.le (hbp.1 j))) ⟨j0, Finset.mem_univ _, mul_pos (H.hflux _ _ _) (mul_pos hi0 hj0)⟩

/-- the parameters of the population model as one vector: star formation rates, burst parameters, metallicity parameters, then scatter, `av`, bump amplitude and slope -/
abbrev PopIdx (n : ℕ) := Fin (n + 2) ⊕ Fin 3 ⊕ Fin 9 ⊕ Fin 4

/-- C162: in particular `jax.grad` with respect to all star formation rates, the three unbounded burst parameters, the nine unbounded metallicity parameters, scatter, `av`,
bump amplitude and slope at once; forward mode gives the same numbers. -/
theorem C162_population_jax_grad (H : GalaxyInputs t ssp_lgmet ssp_lg_age wave ssp_flux t_obs sfr_min (fun _ => 0) fw ft z Om0 h) (hwave : ∀ l, 0 < wave l)
    (S : Fin (n + 2) → ℝ) (ub : Fin 3 → ℝ) (um : Fin 9 → ℝ) (scatter av B δ : ℝ) (hpos : 0 < scatter) :
    let M := Gen.populationMag (fun j => Flt.lit (t j)) (fun j => Rv.var (Sum.inl j : PopIdx n) (fin (S j))) (fun j => Rv.var (.inr (.inl j)) (fin (ub j)))
        (fun j => Rv.var (.inr (.inr (.inl j))) (fin (um j))) (Rv.var (.inr (.inr (.inr 0))) (fin scatter)) (Rv.var (.inr (.inr (.inr 1))) (fin av))
        (Rv.var (.inr (.inr (.inr 2))) (fin B)) (Rv.var (.inr (.inr (.inr 3))) (fin δ))
        (fun j => Flt.lit (ssp_lgmet j)) (fun j => Flt.lit (ssp_lg_age j))
        (fun j => Flt.lit (wave j)) (fun i j l => Flt.lit (ssp_flux i j l)) (Flt.lit t_obs) (Flt.lit sfr_min)
        (fun j => Flt.lit (fw j)) (fun j => Flt.lit (ft j)) (Flt.lit z) (Flt.lit Om0) (Flt.lit w0) (Flt.lit wa) (Flt.lit h)
    GradOk (PopulationSmooth t S ub um av B δ ssp_lg_age wave t_obs sfr_min) M
      (fun θ : PopIdx n → ℝ => populationMag t (fun j => θ (.inl j)) (fun j => θ (.inr (.inl j))) (fun j => θ (.inr (.inr (.inl j)))) (θ (.inr (.inr (.inr 0))))
        (θ (.inr (.inr (.inr 1)))) (θ (.inr (.inr (.inr 2)))) (θ (.inr (.inr (.inr 3)))) ssp_lgmet ssp_lg_age wave ssp_flux t_obs sfr_min fw ft z Om0 w0 wa h)
      (Sum.elim S (Sum.elim ub (Sum.elim um ![scatter, av, B, δ]))) ∧
    ∃ G : PopIdx n → ℝ, (∀ i, Rep (M.grad i) (G i)) ∧ ∀ dir, Rep (M.jvp dir) (∑ i, G i * dir i) := by
  have hv : ∀ i, Traced True (Rv.var i (fin (Sum.elim S (Sum.elim ub (Sum.elim um ![scatter, av, B, δ])) i))) (fun θ : PopIdx n → ℝ => θ i)
      (Sum.elim S (Sum.elim ub (Sum.elim um ![scatter, av, B, δ]))) := fun i => Traced.var i
  have hT := C162_population_grad (w0 := w0) (wa := wa) H hwave (θ := (Sum.elim S (Sum.elim ub (Sum.elim um ![scatter, av, B, δ])) : PopIdx n → ℝ))
    (S := fun θ j => θ (.inl j)) (ub := fun θ j => θ (.inr (.inl j))) (um := fun θ j => θ (.inr (.inr (.inl j)))) (fun j => hv (.inl j)) (fun j => hv (.inr (.inl j)))
    (fun j => hv (.inr (.inr (.inl j)))) (hv (.inr (.inr (.inr 0)))) (hv (.inr (.inr (.inr 1)))) (hv (.inr (.inr (.inr 2)))) (hv (.inr (.inr (.inr 3)))) hpos
  exact ⟨hT.gradOk, C159_modes_agree hT⟩

/-- C162: on every age grid that reaches from 1 Myr to 10 Myr with gaps below two dex every burst contains an age of the grid, so that there the only exceptions are star formation
rates at a floor, a vanishing evolution term, a vanishing dust curve and `av = 0`. -/
theorem C162_population_smooth {S : Fin (n + 2) → ℝ} {ub : Fin 3 → ℝ} {um : Fin 9 → ℝ} {av B δ : ℝ} (h0 : ssp_lg_age 0 ≤ -3)
    (h1 : -2 ≤ ssp_lg_age (Fin.last (m + 2))) (hgap : ∀ i : Fin (m + 2), ssp_lg_age i.succ - ssp_lg_age i.castSucc < 2)
    (hS : ∀ i, S i ≠ SFR_MIN ∧ S i ≠ sfr_min)
    (hev : let q := Umzr.get_bounded_mzr_params (Umzr.MZRUParams.ofArray um)
      umzrRaw (Jnp.log10 (SspWeights.mstar_obs t S t_obs sfr_min)) t_obs q.c0_y_at_tlook_c q.c1_y_at_tlook_c q.c0_early_time_slope q.c1_early_time_slope ≠ 0)
    (hd : ∀ l, sbl18Raw (wave l / 10000) B δ 0.2175 0.035 ≠ 0) (ha : av ≠ 0) :
    PopulationSmooth t S ub um av B δ ssp_lg_age wave t_obs sfr_min :=
  ⟨hS, hev, burst_contains_age _ ssp_lg_age h0 h1 hgap, hd, ha⟩

/-! ### metallicity histories -/

/-- The forward model with a metallicity history: rest-frame SED, dimmed by dust, as a magnitude at redshift `z`. -/
noncomputable def historyMag (t S zt : Fin (n + 2) → ℝ) (scatter av : ℝ) (ssp_lgmet : Fin (k + 3) → ℝ) (ssp_lg_age : Fin (m + 3) → ℝ)
    (wave : Fin (w + 2) → ℝ) (ssp_flux : Fin (k + 3) → Fin (m + 3) → Fin (w + 2) → ℝ) (t_obs sfr_min : ℝ) (k_lambda : Fin (w + 2) → ℝ)
    (fw ft : Fin (p + 1) → ℝ) (z Om0 w0 wa h : ℝ) : ℝ :=
  Photometry.calc_obs_mag wave
    (fun l => (SspWeights.calc_rest_sed_sfh_table_met_table t S zt scatter ssp_lgmet ssp_lg_age ssp_flux t_obs sfr_min).rest_sed l *
      Dust.frac_transmission_from_k_lambda (k_lambda l) av 0) fw ft z Om0 w0 wa h

/-- The same program on an abstract float type. -/
noncomputable def Gen.historyMag {α : Type} [Flt α] (t S zt : Fin (n + 2) → α) (scatter av : α) (ssp_lgmet : Fin (k + 3) → α)
    (ssp_lg_age : Fin (m + 3) → α) (wave : Fin (w + 2) → α) (ssp_flux : Fin (k + 3) → Fin (m + 3) → Fin (w + 2) → α) (t_obs sfr_min : α)
    (k_lambda : Fin (w + 2) → α) (fw ft : Fin (p + 1) → α) (z Om0 w0 wa h : α) : α :=
  Gen.calc_obs_mag wave
    (fun l => Gen.calc_rest_sed_sfh_table_met_table t S zt scatter ssp_lgmet ssp_lg_age ssp_flux t_obs sfr_min l *
      Gen.frac_transmission_from_k_lambda (k_lambda l) av (Flt.lit 0)) fw ft z Om0 w0 wa h

theorem sed_history_pos (H : GalaxyInputs t ssp_lgmet ssp_lg_age wave ssp_flux t_obs sfr_min k_lambda fw ft z Om0 h) (S zt : Fin (n + 2) → ℝ) {sig : ℝ}
    (hpos : 0 < sig) (l : Fin (w + 2)) :
    0 < (SspWeights.calc_rest_sed_sfh_table_met_table t S zt sig ssp_lgmet ssp_lg_age ssp_flux t_obs sfr_min).rest_sed l := by
  have hprob := (C24_joint_weights_met_table t S zt sig hpos ssp_lgmet ssp_lg_age t_obs (C05_edges_bracket_partial ssp_lgmet H.hmet _ _ H.hlo H.hhi).1.monotone
    (C17_age_weights_prob_mild_partial t S ssp_lg_age t_obs H.ht H.h0 H.hr H.hage H.hyoung H.hold)).2.1
  obtain ⟨ij, hij⟩ := Finite.exists_min fun ij : Fin (k + 3) × Fin (m + 3) => ssp_flux ij.1 ij.2 l
  obtain ⟨ij', hij'⟩ := Finite.exists_max fun ij : Fin (k + 3) × Fin (m + 3) => ssp_flux ij.1 ij.2 l
  have := ((C25_sed_between t S zt 0 sig ssp_lgmet ssp_lg_age ssp_flux t_obs sfr_min l _ _ (fun i j => hij (i, j))
    (fun i j => hij' (i, j))).2 hprob).1
  exact lt_of_lt_of_le (mul_pos (massFormed_pos _) (H.hflux _ _ _)) this

/-- C162: the observed magnitude of a galaxy with a metallicity history: finite gradients with respect to star formation rates, metallicities, scatter and `av` whatever their
values (positive scatter), exact unless a star formation rate equals a floor or `av ≤ 0`. -/
theorem C162_history_grad (H : GalaxyInputs t ssp_lgmet ssp_lg_age wave ssp_flux t_obs sfr_min k_lambda fw ft z Om0 h)
    {θ : ι → ℝ} {S f : (ι → ℝ) → Fin (n + 2) → ℝ} {sig av : (ι → ℝ) → ℝ} {S' f' : Fin (n + 2) → Rv ι} {sig' av' : Rv ι}
    (hS : ∀ i, Traced True (S' i) (fun θ => S θ i) θ) (hf : ∀ i, Traced True (f' i) (fun θ => f θ i) θ) (hsig : Traced True sig' sig θ)
    (hav : Traced True av' av θ) (hpos : 0 < sig θ) :
    Traced ((∀ i, S θ i ≠ SFR_MIN ∧ S θ i ≠ sfr_min) ∧ 0 < av θ)
      (Gen.historyMag (fun j => Flt.lit (t j)) S' f' sig' av' (fun j => Flt.lit (ssp_lgmet j)) (fun j => Flt.lit (ssp_lg_age j))
        (fun j => Flt.lit (wave j)) (fun i j l => Flt.lit (ssp_flux i j l)) (Flt.lit t_obs) (Flt.lit sfr_min) (fun j => Flt.lit (k_lambda j))
        (fun j => Flt.lit (fw j)) (fun j => Flt.lit (ft j)) (Flt.lit z) (Flt.lit Om0) (Flt.lit w0) (Flt.lit wa) (Flt.lit h))
      (fun θ => historyMag t (S θ) (f θ) (sig θ) (av θ) ssp_lgmet ssp_lg_age wave ssp_flux t_obs sfr_min k_lambda fw ft z Om0 w0 wa h) θ := by
  have hmono := (C05_edges_bracket_partial ssp_lgmet H.hmet _ _ H.hlo H.hhi).1
  have hsed := fun l => (C102_sed_met_table_grad (F := fun _ => ssp_flux) (t := fun _ => t) (z := fun _ => ssp_lgmet) (A := fun _ => ssp_lg_age) (T := fun _ => t_obs)
    (c := fun _ => sfr_min) (fun _ => Traced.lit _) hS hf hsig (fun _ => Traced.lit _) (fun _ => Traced.lit _) (fun _ _ _ => Traced.lit _)
    (Traced.lit _) (Traced.lit _) H.ht H.h0 H.hs H.hr H.hage.1 H.hyoung H.hold hpos hmono l).weaken
    (s' := (∀ i, S θ i ≠ SFR_MIN ∧ S θ i ≠ sfr_min) ∧ 0 < av θ)
    fun h => ⟨⟨fun i => (h.1 i).1, Or.inl ⟨Fixed.const _, Fixed.const _, Fixed.const _⟩⟩, fun i => (h.1 i).2,
      Or.inl ⟨Fixed.const _, Fixed.const _, Fixed.const _⟩⟩
  have hdust := fun l => (traced_transmission (κ := fun _ => k_lambda l) (fl0 := fun _ => 0) (Traced.lit (k_lambda l)) hav (Traced.lit 0)).weaken
    (s' := (∀ i, S θ i ≠ SFR_MIN ∧ S θ i ≠ sfr_min) ∧ 0 < av θ) fun h => ⟨trivial, by
      right
      filter_upwards [(hav.continuousAt trivial).eventually_const_lt h.2] with y hy
      exact mul_nonneg (le_of_lt hy) (H.hk l)⟩
  have hfp := flux_pos_of_covered (lum := fun l => (SspWeights.calc_rest_sed_sfh_table_met_table t (S θ) (f θ) (sig θ) ssp_lgmet ssp_lg_age ssp_flux t_obs
      sfr_min).rest_sed l * Dust.frac_transmission_from_k_lambda (k_lambda l) (av θ) 0) H.hw
      (fun l => mul_pos (sed_history_pos H (S θ) (f θ) hpos l) (transmission_pos _ _)) H.hf H.hA (z := z) (by linarith [H.hz]) H.hcov
  unfold Gen.historyMag historyMag
  exact (traced_calc_obs_mag (W := fun _ => wave) (L := fun θ l => (SspWeights.calc_rest_sed_sfh_table_met_table t (S θ) (f θ) (sig θ) ssp_lgmet ssp_lg_age
      ssp_flux t_obs sfr_min).rest_sed l * Dust.frac_transmission_from_k_lambda (k_lambda l) (av θ) 0) (fw := fun _ => fw) (ft := fun _ => ft)
    (z := fun _ => z) (O := fun _ => Om0) (v := fun _ => w0) (u := fun _ => wa) (h := fun _ => h)
    (fun _ => Traced.lit _) (fun l => (hsed l).mul (hdust l)) (fun _ => Traced.lit _) (fun _ => Traced.lit _) (Traced.lit z) (Traced.lit Om0)
    (Traced.lit w0) (Traced.lit wa) (Traced.lit h) H.hf0 hfp H.hz H.hO H.hh).weaken fun h => ⟨h, Or.inl ⟨Fixed.const _, Fixed.const _⟩⟩

/-- C162: in particular `jax.grad` with respect to star formation rates (`inl (inl i)`), metallicities (`inl (inr i)`), scatter and `av` (`inr 0, 1`); forward mode gives the
same numbers. -/
theorem C162_history_jax_grad (H : GalaxyInputs t ssp_lgmet ssp_lg_age wave ssp_flux t_obs sfr_min k_lambda fw ft z Om0 h)
    (S zt : Fin (n + 2) → ℝ) (scatter av : ℝ) (hpos : 0 < scatter) :
    let M := Gen.historyMag (fun j => Flt.lit (t j)) (fun j => Rv.var (Sum.inl (Sum.inl j)) (fin (S j))) (fun j => Rv.var (Sum.inl (Sum.inr j)) (fin (zt j)))
        (Rv.var (Sum.inr (0 : Fin 2)) (fin scatter)) (Rv.var (Sum.inr 1) (fin av)) (fun j => Flt.lit (ssp_lgmet j)) (fun j => Flt.lit (ssp_lg_age j))
        (fun j => Flt.lit (wave j)) (fun i j l => Flt.lit (ssp_flux i j l)) (Flt.lit t_obs) (Flt.lit sfr_min) (fun j => Flt.lit (k_lambda j))
        (fun j => Flt.lit (fw j)) (fun j => Flt.lit (ft j)) (Flt.lit z) (Flt.lit Om0) (Flt.lit w0) (Flt.lit wa) (Flt.lit h)
    GradOk ((∀ i, S i ≠ SFR_MIN ∧ S i ≠ sfr_min) ∧ 0 < av) M
      (fun θ : (Fin (n + 2) ⊕ Fin (n + 2)) ⊕ Fin 2 → ℝ => historyMag t (fun j => θ (Sum.inl (Sum.inl j))) (fun j => θ (Sum.inl (Sum.inr j))) (θ (Sum.inr 0)) (θ (Sum.inr 1))
        ssp_lgmet ssp_lg_age wave ssp_flux t_obs sfr_min k_lambda fw ft z Om0 w0 wa h)
      (Sum.elim (Sum.elim S zt) ![scatter, av]) ∧
    ∃ G : (Fin (n + 2) ⊕ Fin (n + 2)) ⊕ Fin 2 → ℝ, (∀ i, Rep (M.grad i) (G i)) ∧ ∀ dir, Rep (M.jvp dir) (∑ i, G i * dir i) := by
  have hv : ∀ i, Traced True (Rv.var i (fin (Sum.elim (Sum.elim S zt) ![scatter, av] i))) (fun θ : (Fin (n + 2) ⊕ Fin (n + 2)) ⊕ Fin 2 → ℝ => θ i)
      (Sum.elim (Sum.elim S zt) ![scatter, av]) := fun i => Traced.var i
  have hT := C162_history_grad (w0 := w0) (wa := wa) H (θ := (Sum.elim (Sum.elim S zt) ![scatter, av] : (Fin (n + 2) ⊕ Fin (n + 2)) ⊕ Fin 2 → ℝ))
    (S := fun θ j => θ (.inl (.inl j))) (f := fun θ j => θ (.inl (.inr j))) (fun j => hv (.inl (.inl j))) (fun j => hv (.inl (.inr j)))
    (hv (.inr 0)) (hv (.inr 1)) hpos
  exact ⟨hT.gradOk, C159_modes_agree hT⟩

end
end Dsps.Props

namespace Dsps.Props
open Rev XF Dsps.Lemmas Dsps.Constants Spec
open Dsps.StellarAgeWeights (get_lg_age_bin_edges)

section
attribute [local instance] Jnp.Dtype.float64

/-- the hypotheses of `C162_population_jax_grad` and of its exactness part are met: 3 table times, ages from 1 Myr to 100 Myr, 3 metallicities, 3 wavelengths -/
theorem case_population : GalaxyInputs (n := 1) (k := 0) (m := 0) (w := 1) (p := 1) (fun i => (10:ℝ) ^ (i : ℕ)) (fun i => (-2:ℝ) + i * 1) (fun i => (-3:ℝ) + i * 1)
    ![1000, 2000, 5000] (fun _ _ _ => 1) 14.5 1e-14 (fun _ => 0) ![4500, 6000] ![1, 1] 1 0.3 0.7 := by
  have hmild := mildlySpaced_uniform (n := 0) (-2) 1 one_pos
  have hmildA := mildlySpaced_uniform (n := 0) (-3) 1 one_pos
  have hm := C17_age_edges_mono _ hmildA
  have hlast : get_lg_age_bin_edges (fun i : Fin 3 => (-3:ℝ) + i * 1) (Fin.last 3) = -1 / 2 := by
    rw [lg_age_edges_eq, edges_last, dt_last]
    simp [Fin.last]
    norm_num
  have hb : ∀ e, (10:ℝ) ^ (get_lg_age_bin_edges (fun i : Fin 3 => (-3:ℝ) + i * 1) e) < 4 := fun e =>
    lt_of_le_of_lt (Real.rpow_le_one_of_one_le_of_nonpos (by norm_num) ((hm.monotone (Fin.le_last e)).trans (by rw [hlast]; norm_num))) (by norm_num)
  have hp : ∀ e, 0 < (10:ℝ) ^ (get_lg_age_bin_edges (fun i : Fin 3 => (-3:ℝ) + i * 1) e) := fun e => by positivity
  refine
    { ht := strictMono_pow10 3, h0 := (by norm_num), hs := (by norm_num), hr := resolved_pow10 1, hage := hmildA, hmet := hmild, hlo := (by norm_num), hhi := (by norm_num), hyoung := ?_, hold := ?_, hflux := fun _ _ _ => one_pos, hk := fun _ => by norm_num, hw := ?_, hf := ?_, hA := ?_, hf0 := ?_,
      hz := one_pos, hO := ⟨by norm_num, by norm_num⟩, hh := by norm_num, hcov := ?_ }
  · have := hb 0; norm_num at this ⊢; linarith
  · have := hp (Fin.last 3); norm_num at this ⊢; linarith
  · rw [Fin.monotone_iff_le_succ]; intro i; fin_cases i <;> simp <;> norm_num
  · refine ⟨?_, ?_, ?_⟩
    · rw [Fin.monotone_iff_le_succ]; intro i; fin_cases i; simp; norm_num
    · intro i; fin_cases i <;> simp
    · intro i; fin_cases i <;> simp
  · unfold Photometry.flux_ab0_at_10pc Photometry.AB0; simp only; rw [trapz_eq]; simp [Fin.sum_univ_succ]; norm_num
  · intro i; fin_cases i <;> simp
  · intro i; fin_cases i <;> simp <;> norm_num

theorem case_population_wave (l : Fin 3) : 0 < (![1000, 2000, 5000] : Fin 3 → ℝ) l := by fin_cases l <;> simp

/-- at these inputs the model has no kink, for some metallicity parameters -/
theorem case_population_smooth (ub : Fin 3 → ℝ) : ∃ um, PopulationSmooth (n := 1) (m := 0) (w := 1) (fun i => (10:ℝ) ^ (i : ℕ)) ![3, 1, 2] ub um 0.5 1 0.3
    (fun i => (-3:ℝ) + i * 1) ![1000, 2000, 5000] 14.5 1e-14 := by
  obtain ⟨um, hum⟩ : ∃ um, let q := Umzr.get_bounded_mzr_params (Umzr.MZRUParams.ofArray um)
      umzrRaw (Jnp.log10 (SspWeights.mstar_obs (n := 1) (fun i => (10:ℝ) ^ (i : ℕ)) ![3, 1, 2] 14.5 1e-14)) 14.5 q.c0_y_at_tlook_c q.c1_y_at_tlook_c
        q.c0_early_time_slope q.c1_early_time_slope ≠ 0 := by
    by_contra hc
    push Not at hc
    have key : ∀ x c0 c1 d0 d1, umzrRaw x 14.5 c0 c1 d0 d1 = 0 → d0 + d1 * x = (c0 + c1 * x) / 8.44 := by
      intro x c0 c1 d0 d1 h
      have hs : 0 < Jnp.sigmoid (1.6 * (0 - 8.44)) := by unfold Jnp.sigmoid; positivity
      unfold umzrRaw mzrLookback Umzr.delta_logz_vs_t_lookback Utils.sig_slope Umzr.TLOOK_C Umzr.MZR_DT_XTP Utils.sigmoid at h
      rw [if_pos (by norm_num)] at h
      dsimp only at h
      have : Jnp.sigmoid (1.6 * (0 - 8.44)) * (d0 + d1 * x - (c0 + c1 * x) / 8.44) = 0 := by
        generalize Jnp.sigmoid (1.6 * (0 - 8.44)) = σ at h hs ⊢
        linear_combination (-1 / 8.44) * h
      rcases mul_eq_zero.1 this with h' | h'
      · exact absurd h' hs.ne'
      · linarith
    have h1 := key _ _ _ _ _ (not_not.1 (hc fun _ => 0))
    have h2 := key _ _ _ _ _ (not_not.1 (hc ![0, 0, 0, 0, 0, 0, 0, 1, 0]))
    have h3 := sigmoid_strictMono (show (0.1 * (0 - 0.5 * (-1.5 + -0.5)) : ℝ) < 0.1 * (1 - 0.5 * (-1.5 + -0.5)) by norm_num)
    simp [Umzr.get_bounded_mzr_params, Umzr.MZRUParams.ofArray, Umzr.MZRUParams.toArray, Umzr.MZRParams.ofArray, Jnp.vmap₂, Umzr.get_square_bounded_param,
      Umzr.MZR_PBDICT, Utils.sigmoid, Umzr.BOUNDING_K] at h1 h2
    norm_num at h1 h2 h3
    linarith
  refine ⟨um, C162_population_smooth (by norm_num) (by norm_num [Fin.last]) (fun i => by norm_num) (fun i => ?_) hum (fun l => ne_of_gt ?_) (by norm_num)⟩
  · fin_cases i <;> norm_num [SFR_MIN]
  · unfold sbl18Raw
    refine add_pos_of_pos_of_nonneg (mul_pos ?_ ?_) ?_
    · fin_cases l <;> norm_num [Dust.l02_below_c00_above, Dust.calzetti00_k_lambda, Dust.leitherer02_k_lambda, Dust.RV_C00]
    · unfold Dust.power_law_vband_norm; have := case_population_wave l; positivity
    · unfold Dust.drude_bump; positivity

example (w0 wa : ℝ) (um : Fin 9 → ℝ) := C162_population_jax_grad (w0 := w0) (wa := wa) case_population case_population_wave ![3, 1, 2] ![-2, 6, 7] um 0.2 0.5 1 0.3
  (by norm_num)
example (w0 wa : ℝ) := C162_population_grad (w0 := w0) (wa := wa) case_population case_population_wave (θ := ![0.2, 0.5]) (S := fun _ => ![3, 1, 2])
  (ub := fun _ => ![-2, 6, 7]) (um := fun _ _ => 0) (sig := fun θ => θ 0) (av := fun θ => θ 1) (B := fun _ => 1) (δ := fun _ => 0.3) (fun _ => Traced.lit _)
  (fun _ => Traced.lit _) (fun _ => Traced.lit _) (Traced.var 0) (Traced.var 1) (Traced.lit _) (Traced.lit _) (by norm_num)
example (w0 wa : ℝ) := C162_history_jax_grad (w0 := w0) (wa := wa) case_population ![3, 1, 2] ![-2.6, -2.1, -1.5] 0.2 0.5 (by norm_num)
example (w0 wa : ℝ) := C162_history_grad (w0 := w0) (wa := wa) case_population (θ := ![0.2, 0.5]) (S := fun _ => ![3, 1, 2])
  (f := fun _ => ![-2.6, -2.1, -1.5]) (sig := fun θ => θ 0) (av := fun θ => θ 1) (fun _ => Traced.lit _) (fun _ => Traced.lit _) (Traced.var 0) (Traced.var 1)
  (by norm_num)
end

end Dsps.Props
