import Verif.Lemmas.NestedGen
import Verif.Props.GradPipeline
import Mathlib.Analysis.Calculus.FDeriv.Symmetric

/-! Property C160: derivatives of any order, by any nesting of forward and reverse mode. -/
namespace Dsps.Props
open XF Dsps.Lemmas Dsps.Constants Spec Filter Topology Nested
open Dsps.StellarAgeWeights (get_lg_age_bin_edges)

variable {ι : Type} [Fintype ι] {n m k w p : ℕ}

/-! ### what `DerivsOk` says about the Hessian -/

/-- the partial derivative of `f` in the parameter `i`, at `y` -/
noncomputable def partialD [DecidableEq ι] (f : (ι → ℝ) → ℝ) (i : ι) (y : ι → ℝ) : ℝ := deriv (fun t => f (Function.update y i t)) (y i)

/-- **Specification.**  What `jax.hessian(f)(θ) = jax.jacfwd(jax.jacrev(f))(θ)` should be: the value and all first and second partial derivatives are finite and right.  A number
recorded by the forward mode (outer) within the reverse mode (inner) has the gradient `grad i` and that has the tangents. -/
def HessianOk [DecidableEq ι] (x : Nest ι [.rev, .fwd]) (f : (ι → ℝ) → ℝ) (θ : ι → ℝ) : Prop :=
  Rep x.v.v (f θ) ∧ (∀ i, Rep (x.grad i).v (partialD f i θ)) ∧ ∀ i j, Rep ((x.grad i).tan (Pi.single j 1)) (partialD (partialD f i) j θ)

theorem derivsOk_hessian [DecidableEq ι] {x : Nest ι [.rev, .fwd]} {f : (ι → ℝ) → ℝ} {θ : ι → ℝ} (h : Nest.DerivsOk [.rev, .fwd] x f θ) : HessianOk x f θ := by
  obtain ⟨⟨h0, -⟩, h1⟩ := h
  refine ⟨h0, fun i => ?_, fun i j => ?_⟩
  · obtain ⟨f', k1, k2, -⟩ := h1 i
    have : partialD f i θ = f' θ := k1.self_of_nhds.deriv
    rw [this]; exact k2
  · obtain ⟨f', k1, k2, k3⟩ := h1 i
    obtain ⟨f'', l1, l2⟩ := k3 (Pi.single j 1)
    have e : partialD f i =ᶠ[𝓝 θ] f' := k1.mono fun y hy => hy.deriv
    have hu : ∀ t : ℝ, Function.update θ j t = θ + (t - θ j) • Pi.single j (1:ℝ) := by
      intro t; funext l
      by_cases hl : l = j
      · subst hl; simp
      · simp [hl]
    have hd : HasDerivAt (fun t => f' (Function.update θ j t)) (f'' θ) (θ j) := by
      simp only [hu]
      have h0 := l1.self_of_nhds
      have h1 : HasDerivAt (fun t : ℝ => f' (θ + t • Pi.single j 1)) (f'' θ) (θ j - θ j) := by rw [sub_self]; exact h0
      have := HasDerivAt.comp_sub_const (θ j) (θ j) h1
      exact this
    have : partialD (partialD f i) j θ = f'' θ := by
      refine Eq.trans (Filter.EventuallyEq.deriv_eq ?_) hd.deriv
      have hc : Tendsto (fun t => Function.update θ j t) (𝓝 (θ j)) (𝓝 θ) := by
        have : Continuous fun t => Function.update θ j t := continuous_const.update j continuous_id
        have h := this.tendsto (θ j)
        rwa [Function.update_eq_self] at h
      exact hc.eventually e
    rw [this]; exact l2

/-- in exact arithmetic, the Hessian is symmetric -/
theorem hessian_symm [DecidableEq ι] {x : Nest ι [.rev, .fwd]} {f : (ι → ℝ) → ℝ} {θ : ι → ℝ} (h : Tr x f θ) (i j : ι) :
    partialD (partialD f i) j θ = partialD (partialD f j) i θ := by
  obtain ⟨G, h1, h2, h3⟩ := h
  have hd : ∀ i, ∃ K : ι → ℝ, HasFDerivAt (G i) (Rev.lin K) θ := fun i => by
    obtain ⟨K, -, -, k3⟩ := (h2 _ _ (Tr.lit 1) i).of_eq (g := G i) (by funext y; ring)
    exact ⟨_, k3.self_of_nhds⟩
  choose K hK using hd
  have hlin : ∀ c : ι → ℝ, Rev.lin c = ∑ i, c i • ContinuousLinearMap.proj (R := ℝ) (φ := fun _ : ι => ℝ) i := fun c => by
    ext v; simp [Rev.lin_apply]
  have h2' : HasFDerivAt (fun y => Rev.lin fun i => G i y)
      (∑ i, (Rev.lin (K i)).smulRight (ContinuousLinearMap.proj (R := ℝ) (φ := fun _ : ι => ℝ) i)) θ := by
    simp only [hlin (fun i => G i _)]
    exact HasFDerivAt.fun_sum fun i _ => (hK i).smul_const (ContinuousLinearMap.proj (R := ℝ) (φ := fun _ : ι => ℝ) i : (ι → ℝ) →L[ℝ] ℝ)
  have hs := second_derivative_symmetric_of_eventually h3 h2' (Pi.single i 1) (Pi.single j 1)
  have ev : ∀ i j, (∑ l, (Rev.lin (K l)).smulRight (ContinuousLinearMap.proj (R := ℝ) (φ := fun _ : ι => ℝ) l)) (Pi.single i 1) (Pi.single j 1) = K j i := by
    intro i j
    simp [ContinuousLinearMap.sum_apply, Rev.lin_apply, Pi.single_apply]
  rw [ev, ev] at hs
  have hp : ∀ i j, partialD (partialD f i) j θ = K i j := by
    intro i j
    have e : partialD f i =ᶠ[𝓝 θ] G i := h3.mono fun y hy => (partial_deriv hy i).deriv
    have hc : Tendsto (fun t => Function.update θ j t) (𝓝 (θ j)) (𝓝 θ) := by
      have : Continuous fun t => Function.update θ j t := continuous_const.update j continuous_id
      have h := this.tendsto (θ j)
      rwa [Function.update_eq_self] at h
    exact (Filter.EventuallyEq.deriv_eq (show (fun t => partialD f i (Function.update θ j t)) =ᶠ[𝓝 (θ j)] fun t => G i (Function.update θ j t) from hc.eventually e)).trans (partial_deriv (hK i) j).deriv
  rw [hp, hp, hs]

/-! ### metallicity weights -/

theorem edges_const' {x sig : ℝ} {z : Fin (k + 3) → ℝ} (h : ∀ e, |x - Utils.get_bin_edges z (-10) 10 e| ≠ 3 * sig) :
    OffJoins x sig (Utils.get_bin_edges z LGMET_LO LGMET_HI) := by
  rw [show (LGMET_LO : ℝ) = -10 by norm_num [LGMET_LO], show (LGMET_HI : ℝ) = 10 by norm_num [LGMET_HI]]; exact h


/-- C160: the metallicity weights, differentiated any number of times by any nesting of forward and reverse mode, with respect to metallicity and scatter: all derivatives
are finite and right when the metallicity is not exactly three scatters from an edge of a metallicity bin. -/
theorem C160_lgmet_weights_derivs (gal_lgmet scatter : ℝ) (ssp_lgmet : Fin (k + 3) → ℝ) (hpos : 0 < scatter)
    (hmono : StrictMono (Utils.get_bin_edges ssp_lgmet (-10) 10))
    (hj : ∀ e, |gal_lgmet - Utils.get_bin_edges ssp_lgmet (-10) 10 e| ≠ 3 * scatter) (i : Fin (k + 3)) (ms : List Mode) :
    Nest.DerivsOk ms (Gen.calc_lgmet_weights_from_lognormal_mdf (Nest.var (0 : Fin 2) gal_lgmet ms) (Nest.var 1 scatter ms) (fun j => Flt.lit (ssp_lgmet j)) i)
      (fun θ : Fin 2 → ℝ => MetallicityWeights.calc_lgmet_weights_from_lognormal_mdf (θ 0) (θ 1) ssp_lgmet i) ![gal_lgmet, scatter] :=
  Tr.derivsOk ms (TrV.lgmet_lognormal (θ := ![gal_lgmet, scatter]) (z := fun _ => ssp_lgmet) (Tr.var 0 ms) (Tr.var 1 ms) (TrV.lit ssp_lgmet) hpos (edges_const hmono) (edges_const' hj) i)

/-! ### the whole forward model -/

section
variable [Jnp.Dtype] {t : Fin (n + 2) → ℝ} {ssp_lgmet : Fin (k + 3) → ℝ} {ssp_lg_age : Fin (m + 3) → ℝ} {wave : Fin (w + 2) → ℝ}
    {ssp_flux : Fin (k + 3) → Fin (m + 3) → Fin (w + 2) → ℝ} {t_obs sfr_min : ℝ} {k_lambda : Fin (w + 2) → ℝ} {fw ft : Fin (p + 1) → ℝ} {z Om0 w0 wa h : ℝ}

variable {α : Type} [Flt α] [Tracer ι α]

theorem galaxy_tr (H : GalaxyInputs t ssp_lgmet ssp_lg_age wave ssp_flux t_obs sfr_min k_lambda fw ft z Om0 h)
    {θ : ι → ℝ} {S : (ι → ℝ) → Fin (n + 2) → ℝ} {x sig av : (ι → ℝ) → ℝ} {S' : Fin (n + 2) → α} {x' sig' av' : α}
    (hS : TrV S' S θ) (hx : Tr x' x θ) (hsig : Tr sig' sig θ) (hav : Tr av' av θ)
    (hpos : 0 < sig θ) (hfl : ∀ i, S θ i ≠ SFR_MIN ∧ S θ i ≠ sfr_min) (ha0 : 0 < av θ)
    (hj : ∀ e, |x θ - Utils.get_bin_edges ssp_lgmet (-10) 10 e| ≠ 3 * sig θ) :
    Tr (Gen.galaxyMag (fun j => Flt.lit (t j)) S' x' sig' av' (fun j => Flt.lit (ssp_lgmet j)) (fun j => Flt.lit (ssp_lg_age j))
        (fun j => Flt.lit (wave j)) (fun i j l => Flt.lit (ssp_flux i j l)) (Flt.lit t_obs) (Flt.lit sfr_min) (fun j => Flt.lit (k_lambda j))
        (fun j => Flt.lit (fw j)) (fun j => Flt.lit (ft j)) (Flt.lit z) (Flt.lit Om0) (Flt.lit w0) (Flt.lit wa) (Flt.lit h))
      (fun θ => galaxyMag t (S θ) (x θ) (sig θ) (av θ) ssp_lgmet ssp_lg_age wave ssp_flux t_obs sfr_min k_lambda fw ft z Om0 w0 wa h) θ := by
  have hmono := (C05_edges_bracket_partial ssp_lgmet H.hmet _ _ H.hlo H.hhi).1
  have hSF : (0:ℝ) < SFR_MIN := by norm_num [SFR_MIN]
  have hage := TrV.age_weights (TrV.lit t) hS (TrV.lit ssp_lg_age) (Tr.lit t_obs) (Tr.lit SFR_MIN) H.ht H.h0 hSF (fun i => (hfl i).1) (mass_ne hSF H.ht H.h0 H.hr H.hage.1 H.hyoung H.hold)
  have hmet := TrV.lgmet_lognormal (z := fun _ => ssp_lgmet) hx hsig (TrV.lit ssp_lgmet) hpos (edges_const hmono) (edges_const' hj)
  have hage1 := C17_age_weights_sum t (S θ) ssp_lg_age t_obs SFR_MIN hSF H.ht H.h0 H.hr H.hage.1 H.hyoung H.hold
  have hmet1 := (C21_lgmet_weights_prob_partial (x θ) (sig θ) hpos ssp_lgmet hmono.monotone).2
  have htot : SspWeights.sum2 (fun (i : Fin (k + 3)) (j : Fin (m + 3)) =>
      MetallicityWeights.calc_lgmet_weights_from_lognormal_mdf (x θ) (sig θ) ssp_lgmet i *
        StellarAgeWeights.calc_age_weights_from_sfh_table t (S θ) ssp_lg_age t_obs SFR_MIN j) ≠ 0 := by
    rw [sum2_eq]
    simp only [← Finset.mul_sum, hage1, mul_one, hmet1]
    norm_num
  have hobs : 0 < t_obs := by
    have := Real.rpow_pos_of_pos (show (0:ℝ) < 10 by norm_num) (get_lg_age_bin_edges ssp_lg_age 0)
    have h0 := H.h0
    have h1 := H.hyoung
    norm_num at h0
    linarith
  have hW := tr_ssp_weights (fun i _ => hmet i) hage htot
  have hsed := fun l => (tr_sum2 (f := fun θ i j => ssp_flux i j l * _) fun i j => (Tr.lit (ssp_flux i j l)).mul (hW i j)).mul
    (tr_mstar_obs (TrV.lit t) hS (Tr.lit t_obs) (Tr.lit sfr_min) H.ht H.h0 H.hs hobs fun i => (hfl i).2)
  have hdust := fun l => tr_transmission (κ := fun _ => k_lambda l) (fl0 := fun _ => 0) (Tr.lit (k_lambda l)) hav (Tr.lit 0) (by
      filter_upwards [hav.cont.eventually_const_lt ha0] with y hy
      exact mul_nonneg (le_of_lt hy) (H.hk l))
  have hfp := flux_pos_of_covered (lum := fun l => (SspWeights.calc_rest_sed_sfh_table_lognormal_mdf t (S θ) (x θ) (sig θ) ssp_lgmet ssp_lg_age ssp_flux t_obs
      sfr_min).rest_sed l * Dust.frac_transmission_from_k_lambda (k_lambda l) (av θ) 0) H.hw
      (fun l => mul_pos (sed_pos H (S θ) (x θ) hpos l) (transmission_pos _ _)) H.hf H.hA (z := z) (by linarith [H.hz]) H.hcov
  unfold Gen.galaxyMag galaxyMag
  exact tr_calc_obs_mag (W := wave) (L := fun θ l => (SspWeights.calc_rest_sed_sfh_table_lognormal_mdf t (S θ) (x θ) (sig θ) ssp_lgmet ssp_lg_age
      ssp_flux t_obs sfr_min).rest_sed l * Dust.frac_transmission_from_k_lambda (k_lambda l) (av θ) 0) (fw := fw) (ft := ft)
    (z := z) (O := fun _ => Om0) (v := fun _ => w0) (u := fun _ => wa) (h := fun _ => h)
    (TrV.lit wave) (fun l => (hsed l).mul (hdust l)) (TrV.lit fw) (TrV.lit ft) (Tr.lit z) (Tr.lit Om0)
    (Tr.lit w0) (Tr.lit wa) (Tr.lit h) H.hf0 hfp H.hz H.hO H.hh

/-- C160: the observed magnitude of the whole forward model, differentiated any number of times by any nesting of forward and reverse mode, with respect to all star
formation rates (`inl i`), metallicity, scatter and `av` (`inr 0, 1, 2`): all derivatives are finite and right, unless a star formation rate equals a floor, `av ≤ 0`,
or the metallicity is exactly three scatters from an edge of a metallicity bin. -/
theorem C160_galaxy_mag_derivs (H : GalaxyInputs t ssp_lgmet ssp_lg_age wave ssp_flux t_obs sfr_min k_lambda fw ft z Om0 h)
    (S : Fin (n + 2) → ℝ) (gal_lgmet scatter av : ℝ) (hpos : 0 < scatter)
    (hfl : ∀ i, S i ≠ SFR_MIN ∧ S i ≠ sfr_min) (ha0 : 0 < av) (hj : ∀ e, |gal_lgmet - Utils.get_bin_edges ssp_lgmet (-10) 10 e| ≠ 3 * scatter) (ms : List Mode) :
    Nest.DerivsOk ms
      (Gen.galaxyMag (fun j => Flt.lit (t j)) (fun j => Nest.var (Sum.inl j) (S j) ms) (Nest.var (Sum.inr (0 : Fin 3)) gal_lgmet ms)
        (Nest.var (Sum.inr 1) scatter ms) (Nest.var (Sum.inr 2) av ms) (fun j => Flt.lit (ssp_lgmet j)) (fun j => Flt.lit (ssp_lg_age j))
        (fun j => Flt.lit (wave j)) (fun i j l => Flt.lit (ssp_flux i j l)) (Flt.lit t_obs) (Flt.lit sfr_min) (fun j => Flt.lit (k_lambda j))
        (fun j => Flt.lit (fw j)) (fun j => Flt.lit (ft j)) (Flt.lit z) (Flt.lit Om0) (Flt.lit w0) (Flt.lit wa) (Flt.lit h))
      (fun θ : Fin (n + 2) ⊕ Fin 3 → ℝ => galaxyMag t (fun j => θ (Sum.inl j)) (θ (Sum.inr 0)) (θ (Sum.inr 1)) (θ (Sum.inr 2)) ssp_lgmet ssp_lg_age
        wave ssp_flux t_obs sfr_min k_lambda fw ft z Om0 w0 wa h)
      (Sum.elim S ![gal_lgmet, scatter, av]) :=
  Tr.derivsOk ms (galaxy_tr H (θ := (Sum.elim S ![gal_lgmet, scatter, av] : Fin (n + 2) ⊕ Fin 3 → ℝ)) (S := fun θ j => θ (Sum.inl j)) (fun j => Tr.var (θ := (Sum.elim S ![gal_lgmet, scatter, av] : Fin (n + 2) ⊕ Fin 3 → ℝ)) (Sum.inl j) ms)
    (Tr.var (θ := (Sum.elim S ![gal_lgmet, scatter, av] : Fin (n + 2) ⊕ Fin 3 → ℝ)) (Sum.inr 0) ms) (Tr.var (θ := (Sum.elim S ![gal_lgmet, scatter, av] : Fin (n + 2) ⊕ Fin 3 → ℝ)) (Sum.inr 1) ms) (Tr.var (θ := (Sum.elim S ![gal_lgmet, scatter, av] : Fin (n + 2) ⊕ Fin 3 → ℝ)) (Sum.inr 2) ms) hpos hfl ha0 hj)

/-- C160: in particular `jax.hessian` of the observed magnitude: it holds all second partial derivatives, and it is symmetric. -/
theorem C160_galaxy_mag_hessian (H : GalaxyInputs t ssp_lgmet ssp_lg_age wave ssp_flux t_obs sfr_min k_lambda fw ft z Om0 h)
    (S : Fin (n + 2) → ℝ) (gal_lgmet scatter av : ℝ) (hpos : 0 < scatter)
    (hfl : ∀ i, S i ≠ SFR_MIN ∧ S i ≠ sfr_min) (ha0 : 0 < av) (hj : ∀ e, |gal_lgmet - Utils.get_bin_edges ssp_lgmet (-10) 10 e| ≠ 3 * scatter) :
    let f : (Fin (n + 2) ⊕ Fin 3 → ℝ) → ℝ := fun θ => galaxyMag t (fun j => θ (Sum.inl j)) (θ (Sum.inr 0)) (θ (Sum.inr 1)) (θ (Sum.inr 2)) ssp_lgmet ssp_lg_age
        wave ssp_flux t_obs sfr_min k_lambda fw ft z Om0 w0 wa h
    HessianOk
      (Gen.galaxyMag (fun j => Flt.lit (t j)) (fun j => Nest.var (Sum.inl j) (S j) [.rev, .fwd]) (Nest.var (Sum.inr (0 : Fin 3)) gal_lgmet [.rev, .fwd])
        (Nest.var (Sum.inr 1) scatter [.rev, .fwd]) (Nest.var (Sum.inr 2) av [.rev, .fwd]) (fun j => Flt.lit (ssp_lgmet j)) (fun j => Flt.lit (ssp_lg_age j))
        (fun j => Flt.lit (wave j)) (fun i j l => Flt.lit (ssp_flux i j l)) (Flt.lit t_obs) (Flt.lit sfr_min) (fun j => Flt.lit (k_lambda j))
        (fun j => Flt.lit (fw j)) (fun j => Flt.lit (ft j)) (Flt.lit z) (Flt.lit Om0) (Flt.lit w0) (Flt.lit wa) (Flt.lit h))
      f (Sum.elim S ![gal_lgmet, scatter, av]) ∧
      ∀ i j, partialD (partialD f i) j (Sum.elim S ![gal_lgmet, scatter, av]) = partialD (partialD f j) i (Sum.elim S ![gal_lgmet, scatter, av]) := by
  have T := galaxy_tr (w0 := w0) (wa := wa) H (θ := (Sum.elim S ![gal_lgmet, scatter, av] : Fin (n + 2) ⊕ Fin 3 → ℝ)) (S := fun θ j => θ (Sum.inl j))
    (fun j => Tr.var (θ := (Sum.elim S ![gal_lgmet, scatter, av] : Fin (n + 2) ⊕ Fin 3 → ℝ)) (Sum.inl j) [.rev, .fwd])
    (Tr.var (θ := (Sum.elim S ![gal_lgmet, scatter, av] : Fin (n + 2) ⊕ Fin 3 → ℝ)) (Sum.inr 0) [.rev, .fwd]) (Tr.var (θ := (Sum.elim S ![gal_lgmet, scatter, av] : Fin (n + 2) ⊕ Fin 3 → ℝ)) (Sum.inr 1) [.rev, .fwd]) (Tr.var (θ := (Sum.elim S ![gal_lgmet, scatter, av] : Fin (n + 2) ⊕ Fin 3 → ℝ)) (Sum.inr 2) [.rev, .fwd]) hpos hfl ha0 hj
  exact ⟨derivsOk_hessian (Tr.derivsOk _ T), hessian_symm T⟩

/-- C160: the age weights, differentiated any number of times with respect to the star formation rates. -/
theorem C160_age_weights_derivs (t S : Fin (n + 2) → ℝ) (A : Fin (m + 3) → ℝ) (t_obs sfr_min : ℝ) (ht : StrictMono t)
    (h0 : 0.001 < t 0) (hs : 0 < sfr_min) (hr : Jnp.Resolved fun i => Real.logb 10 (t i)) (hA : StrictMono A)
    (hyoung : t 0 < t_obs - (10:ℝ) ^ (get_lg_age_bin_edges A 0))
    (hold : t_obs - (10:ℝ) ^ (get_lg_age_bin_edges A (Fin.last (m + 3))) < t (Fin.last (n + 1))) (hfl : ∀ j, S j ≠ sfr_min) (i : Fin (m + 3)) (ms : List Mode) :
    Nest.DerivsOk ms
      (Gen.calc_age_weights_from_sfh_table (fun j => Flt.lit (t j)) (fun j => Nest.var j (S j) ms) (fun j => Flt.lit (A j)) (Flt.lit t_obs) (Flt.lit sfr_min) i)
      (fun S => StellarAgeWeights.calc_age_weights_from_sfh_table t S A t_obs sfr_min i) S :=
  Tr.derivsOk ms (TrV.age_weights (θ := S) (S := fun θ => θ) (TrV.lit t) (fun j => Tr.var j ms) (TrV.lit A) (Tr.lit _) (Tr.lit _) ht h0 hs hfl
    (mass_ne hs ht h0 hr hA hyoung hold) i)

end

/-! ### bursts and cosmology -/

/-- C160: the bursty age weights, differentiated any number of times with respect to the three burst parameters (0, 1, 2): right when the burst overlaps the grid and no age
of the grid is exactly an end of the burst. -/
theorem C160_burst_derivs (lgfburst peak mx : ℝ) (smooth ssp_lg_age : Fin n → ℝ) (hpq : peak < mx) (hin : ∃ i, ssp_lg_age i + 9 ∈ BurstSupport peak mx)
    (hj : ∀ i, ssp_lg_age i + 9 ≠ mx ∧ ssp_lg_age i + 9 ≠ 2 * peak - mx) (i : Fin n) (ms : List Mode) :
    Nest.DerivsOk ms (Gen.calc_bursty_age_weights (Nest.var (0 : Fin 3) lgfburst ms) (Nest.var 1 peak ms) (Nest.var 2 mx ms) (fun j => Flt.lit (smooth j))
        (fun j => Flt.lit (ssp_lg_age j)) i)
      (fun θ => Diffburst.calc_bursty_age_weights ⟨θ 0, θ 1, θ 2⟩ smooth ssp_lg_age i) ![lgfburst, peak, mx] :=
  Tr.derivsOk ms (TrV.bursty (θ := ![lgfburst, peak, mx]) (S := fun _ => smooth) (a := fun _ => ssp_lg_age) (TrV.lit smooth) (TrV.lit ssp_lg_age) (Tr.var 0 ms)
    (Tr.var 1 ms) (Tr.var 2 ms) hpq hin hj i)

/-- C160: cosmic age and distance modulus, differentiated any number of times with respect to redshift, `Om0`, `w0`, `wa` and `h` (0 … 4). -/
theorem C160_cosmology_derivs (z Om0 w0 wa h : ℝ) (hO : PhysicalOm Om0) (hh : 0 < h) (ms : List Mode) :
    (-1 < z → Nest.DerivsOk ms (Gen.age_at_z_kern (Nest.var (0 : Fin 5) z ms) (Nest.var 1 Om0 ms) (Nest.var 2 w0 ms) (Nest.var 3 wa ms) (Nest.var 4 h ms))
      (fun θ => FlatWcdm.age_at_z_kern (θ 0) (θ 1) (θ 2) (θ 3) (θ 4)) ![z, Om0, w0, wa, h]) ∧
    (0 < z → Nest.DerivsOk ms (Gen.distance_modulus_to_z (Nest.var (0 : Fin 5) z ms) (Nest.var 1 Om0 ms) (Nest.var 2 w0 ms) (Nest.var 3 wa ms) (Nest.var 4 h ms))
      (fun θ => FlatWcdm.distance_modulus_to_z (θ 0) (θ 1) (θ 2) (θ 3) (θ 4)) ![z, Om0, w0, wa, h]) :=
  ⟨fun hz => Tr.derivsOk ms (tr_age (θ := ![z, Om0, w0, wa, h]) (Tr.var (θ := ![z, Om0, w0, wa, h]) 0 ms) (Tr.var (θ := ![z, Om0, w0, wa, h]) 1 ms) (Tr.var (θ := ![z, Om0, w0, wa, h]) 2 ms) (Tr.var (θ := ![z, Om0, w0, wa, h]) 3 ms) (Tr.var (θ := ![z, Om0, w0, wa, h]) 4 ms) hz hO hh.ne'),
   fun hz => Tr.derivsOk ms (tr_dmod (θ := ![z, Om0, w0, wa, h]) (Tr.var (θ := ![z, Om0, w0, wa, h]) 0 ms) (Tr.var (θ := ![z, Om0, w0, wa, h]) 1 ms) (Tr.var (θ := ![z, Om0, w0, wa, h]) 2 ms) (Tr.var (θ := ![z, Om0, w0, wa, h]) 3 ms) (Tr.var (θ := ![z, Om0, w0, wa, h]) 4 ms) hO hz hh)⟩

/-! ### the hypotheses are met -/

/-- the metallicity -1 with scatter 0.2 is off the joins of the grid -2, -1, 0 -/
theorem case_off_joins (e : Fin 4) : |(-1:ℝ) - Utils.get_bin_edges (fun i : Fin 3 => (-2:ℝ) + i * 1) (-10) 10 e| ≠ 3 * 0.2 := by
  have h0 : Utils.get_bin_edges (fun i : Fin 3 => (-2:ℝ) + i * 1) (-10) 10 0 = -10 := edges_zero _ _ _
  have h1 : Utils.get_bin_edges (fun i : Fin 3 => (-2:ℝ) + i * 1) (-10) 10 1 = -3 / 2 := by
    refine (edges_interior (fun i : Fin 3 => (-2:ℝ) + i * 1) (-10) 10 0).trans ?_
    norm_num
  have h2 : Utils.get_bin_edges (fun i : Fin 3 => (-2:ℝ) + i * 1) (-10) 10 2 = -1 / 2 := by
    refine (edges_penult (fun i : Fin 3 => (-2:ℝ) + i * 1) (-10) 10).trans ?_
    norm_num [Fin.last]
  have h3 : Utils.get_bin_edges (fun i : Fin 3 => (-2:ℝ) + i * 1) (-10) 10 3 = 10 := edges_last _ _ _
  have : ∀ e : Fin 4, e = 0 ∨ e = 1 ∨ e = 2 ∨ e = 3 := by decide
  rcases this e with rfl | rfl | rfl | rfl
  · rw [h0]; norm_num
  · rw [h1]; norm_num
  · rw [h2]; norm_num
  · rw [h3]; norm_num

section
attribute [local instance] Jnp.Dtype.float64
/-- C160 applied to inputs of the documented kind -/
example (w0 wa : ℝ) (ms : List Mode) := C160_galaxy_mag_derivs (w0 := w0) (wa := wa) case_galaxy_z.choose_spec.choose_spec.choose_spec.choose_spec.choose_spec ![3, 1, 2]
  (-1) 0.2 0.5 (by norm_num) (by intro i; fin_cases i <;> norm_num [SFR_MIN]) (by norm_num) case_off_joins ms
example (w0 wa : ℝ) := C160_galaxy_mag_hessian (w0 := w0) (wa := wa) case_galaxy_z.choose_spec.choose_spec.choose_spec.choose_spec.choose_spec ![3, 1, 2]
  (-1) 0.2 0.5 (by norm_num) (by intro i; fin_cases i <;> norm_num [SFR_MIN]) (by norm_num) case_off_joins
example (i : Fin 3) (ms : List Mode) :=
  let H := case_galaxy_z.choose_spec.choose_spec.choose_spec.choose_spec.choose_spec
  C160_age_weights_derivs _ ![3, 1, 2] _ _ _ H.ht H.h0 H.hs H.hr H.hage.1 H.hyoung H.hold (by intro i; fin_cases i <;> norm_num) i ms
end

example (i : Fin 3) (ms : List Mode) := C160_lgmet_weights_derivs (-1) 0.2 (fun i : Fin 3 => (-2:ℝ) + i * 1) (by norm_num)
  (C05_edges_bracket_partial _ (mildlySpaced_uniform (n := 0) (-2) 1 one_pos) _ _ (by norm_num) (by norm_num)).1 case_off_joins i ms

/-- a burst that peaks at 10 Myr and lasts to 100 Myr, on a grid of ages 1 Myr … 1 Gyr shifted off its ends -/
example (i : Fin 3) (ms : List Mode) := C160_burst_derivs (-2) 7 8 ![0.5, 0.3, 0.2] ![-2.5, -1.5, -0.5] (by norm_num)
  ⟨0, by norm_num [BurstSupport]⟩ (by intro i; fin_cases i <;> norm_num) i ms

example (ms : List Mode) := C160_cosmology_derivs 0.5 0.3 (-1) 0 0.7 ⟨by norm_num, by norm_num⟩ (by norm_num) ms

end Dsps.Props
