import Verif.Lemmas.GenSed
import Verif.Props.NonFiniteSed
import Verif.Cases

/-! Properties C100-C102: gradients (`jax.grad`) of weights and SEDs.  The programs of `Verif/Model/Gen.lean` are run on recorded
floats (`Verif/Rev.lean`); `Traced s x f θ` says that the recorded value is `f θ`, that back-propagation never produces nan or inf,
and, if `s` holds, that it computes the partial derivatives of `f` at `θ`. -/
namespace Dsps.Props
open Rev XF Dsps.Lemmas Dsps.Constants Spec
open Dsps.StellarAgeWeights (get_lg_age_bin_edges)

variable {ι : Type} [Fintype ι] [DecidableEq ι] {θ : ι → ℝ} {n m k w : ℕ}

/-! ## C100: metallicity weights -/

omit [Fintype ι] [DecidableEq ι] in
theorem edges_const {z : Fin (k + 3) → ℝ} (h : StrictMono (Utils.get_bin_edges z (-10) 10)) :
    StrictMono (Utils.get_bin_edges z LGMET_LO LGMET_HI) := by
  have e1 : LGMET_LO = -10 := by norm_num [LGMET_LO]
  have e2 : LGMET_HI = 10 := by norm_num [LGMET_HI]
  rw [e1, e2]; exact h

omit [DecidableEq ι] in
/-- C100: the weights of the SSP metallicities have the exact gradient for every metallicity of the galaxy, every positive scatter and every
grid with increasing bin edges, whatever differentiable model the inputs come from; there is no exception at the edges of the triweight kernel, at
bin edges, or where the kernel leaves the grid. -/
theorem C100_lgmet_weights_grad {x sig : (ι → ℝ) → ℝ} {z : (ι → ℝ) → Fin (k + 3) → ℝ} {x' sig' : Rv ι} {z' : Fin (k + 3) → Rv ι}
    (hx : Traced True x' x θ) (hsig : Traced True sig' sig θ) (hz : ∀ i, Traced True (z' i) (fun θ => z θ i) θ)
    (hpos : 0 < sig θ) (hmono : StrictMono (Utils.get_bin_edges (z θ) (-10) 10)) (i : Fin (k + 3)) :
    Traced True (Gen.calc_lgmet_weights_from_lognormal_mdf x' sig' z' i)
      (fun θ => MetallicityWeights.calc_lgmet_weights_from_lognormal_mdf (x θ) (sig θ) (z θ) i) θ :=
  TV.lgmet_lognormal hx hsig hz hpos (edges_const hmono) i

/-- C100: in particular `jax.grad` with respect to the metallicity and the scatter. -/
theorem C100_lgmet_weights_jax_grad (gal_lgmet scatter : ℝ) (z : Fin (k + 3) → ℝ) (hpos : 0 < scatter)
    (hmono : StrictMono (Utils.get_bin_edges z (-10) 10)) (i : Fin (k + 3)) :
    GradOk True
      (Gen.calc_lgmet_weights_from_lognormal_mdf (Rv.var (0 : Fin 2) (fin gal_lgmet)) (Rv.var 1 (fin scatter)) (fun j => Flt.lit (z j)) i)
      (fun θ => MetallicityWeights.calc_lgmet_weights_from_lognormal_mdf (θ 0) (θ 1) z i) ![gal_lgmet, scatter] :=
  (C100_lgmet_weights_grad (θ := ![gal_lgmet, scatter]) (Traced.var 0) (Traced.var 1) (fun _ => Traced.lit _) hpos hmono i).gradOk

/-- the hypotheses are met by a concrete grid: the galaxy sits exactly on a bin edge -/
example : GradOk True
      (Gen.calc_lgmet_weights_from_lognormal_mdf (Rv.var (0 : Fin 2) (fin (-1/2))) (Rv.var 1 (fin 0.2))
        (fun j => Flt.lit ((![-1, 0, 1] : Fin 3 → ℝ) j)) 1)
      (fun θ => MetallicityWeights.calc_lgmet_weights_from_lognormal_mdf (θ 0) (θ 1) ![-1, 0, 1] 1) ![-1/2, 0.2] := by
  refine C100_lgmet_weights_jax_grad (k := 0) _ _ _ (by norm_num) ?_ 1
  refine (C05_edges_bracket_partial ![-1, 0, 1] ⟨?_, ?_, ?_⟩ (-10) 10 (by simp) (by simp)).1
  · rw [Fin.strictMono_iff_lt_succ]; intro i; fin_cases i <;> simp
  · intro j; fin_cases j; simp
  · simp

/-! ## C101: age weights -/

variable [Jnp.Dtype]

/-- **Specification.**  The star formation history, as a function of the parameters, is not at a kink of the age weights: no star formation
rate of the table equals the floor, and either the table times, the ages and the time of observation do not vary with the parameters, or no age bin
edge was born exactly at a time of the table. -/
def NoAgeKink (t S : (ι → ℝ) → Fin (n + 2) → ℝ) (A : (ι → ℝ) → Fin (m + 3) → ℝ) (T c : (ι → ℝ) → ℝ) (θ : ι → ℝ) : Prop :=
  (∀ i, S θ i ≠ c θ) ∧
    ((Fixed t θ ∧ Fixed A θ ∧ Fixed T θ) ∨ ∀ e j, birthTime (T θ) (get_lg_age_bin_edges (A θ) e) ≠ t θ j)

omit [DecidableEq ι] [Jnp.Dtype] in
theorem mass_ne [Jnp.Dtype] {t S : Fin (n + 2) → ℝ} {A : Fin (m + 3) → ℝ} {t_obs sfr_min : ℝ} (hs : 0 < sfr_min)
    (ht : StrictMono t) (h0 : 0.001 < t 0) (hr : Jnp.Resolved fun i => Real.logb 10 (t i)) (hA : StrictMono A)
    (hyoung : t 0 < t_obs - (10:ℝ) ^ (get_lg_age_bin_edges A 0))
    (hold : t_obs - (10:ℝ) ^ (get_lg_age_bin_edges A (Fin.last (m + 3))) < t (Fin.last (n + 1))) :
    massFormed t S sfr_min (birthTime t_obs (get_lg_age_bin_edges A 0)) ≠
      massFormed t S sfr_min (birthTime t_obs (get_lg_age_bin_edges A (Fin.last (m + 3)))) := by
  have := ((C17_total_mass_pos_iff t S A t_obs sfr_min hs ht h0 hr hA).2.2 ⟨hyoung, hold⟩)
  intro h; rw [h, sub_self] at this; exact lt_irrefl _ this

omit [DecidableEq ι] in
/-- C101: on inputs of the documented kind the gradients of the age weights are finite, whatever the star formation rates (zero and
negative ones included), and exact unless the inputs are at a kink.  The time table, star formation rates, age grid, time of observation and
floor come from any differentiable model. -/
theorem C101_age_weights_grad {t S : (ι → ℝ) → Fin (n + 2) → ℝ} {A : (ι → ℝ) → Fin (m + 3) → ℝ} {T c : (ι → ℝ) → ℝ}
    {t' S' : Fin (n + 2) → Rv ι} {A' : Fin (m + 3) → Rv ι} {T' c' : Rv ι} (ht' : ∀ i, Traced True (t' i) (fun θ => t θ i) θ)
    (hS : ∀ i, Traced True (S' i) (fun θ => S θ i) θ) (hA' : ∀ i, Traced True (A' i) (fun θ => A θ i) θ)
    (hT : Traced True T' T θ) (hc : Traced True c' c θ) (ht : StrictMono (t θ)) (h0 : 0.001 < t θ 0) (hc0 : 0 < c θ)
    (hr : Jnp.Resolved (fun i => Real.logb 10 (t θ i))) (hA : StrictMono (A θ))
    (hyoung : t θ 0 < T θ - (10:ℝ) ^ (get_lg_age_bin_edges (A θ) 0))
    (hold : T θ - (10:ℝ) ^ (get_lg_age_bin_edges (A θ) (Fin.last (m + 3))) < t θ (Fin.last (n + 1))) (i : Fin (m + 3)) :
    Traced (NoAgeKink t S A T c θ) (Gen.calc_age_weights_from_sfh_table t' S' A' T' c' i)
      (fun θ => StellarAgeWeights.calc_age_weights_from_sfh_table (t θ) (S θ) (A θ) (T θ) (c θ) i) θ :=
  (TV.age_weights ht' hS hA' hT hc ht h0 hc0 hr (mass_ne hc0 ht h0 hr hA hyoung hold) i).weaken
    fun h => ⟨trivial, h.1, h.2.imp (fun h => ⟨h.1, h.2.1.mono fun y hy => congrArg get_lg_age_bin_edges hy, h.2.2⟩) id⟩

/-- C101: in particular `jax.grad` with respect to the star formation rates: exact as soon as none of them equals the floor. -/
theorem C101_age_weights_sfh_grad (t S : Fin (n + 2) → ℝ) (A : Fin (m + 3) → ℝ) (t_obs sfr_min : ℝ) (ht : StrictMono t)
    (h0 : 0.001 < t 0) (hs : 0 < sfr_min) (hr : Jnp.Resolved fun i => Real.logb 10 (t i)) (hA : StrictMono A)
    (hyoung : t 0 < t_obs - (10:ℝ) ^ (get_lg_age_bin_edges A 0))
    (hold : t_obs - (10:ℝ) ^ (get_lg_age_bin_edges A (Fin.last (m + 3))) < t (Fin.last (n + 1))) (i : Fin (m + 3)) :
    GradOk (∀ j, S j ≠ sfr_min)
      (Gen.calc_age_weights_from_sfh_table (fun j => Flt.lit (t j)) (fun j => Rv.var j (fin (S j))) (fun j => Flt.lit (A j))
        (Flt.lit t_obs) (Flt.lit sfr_min) i)
      (fun S => StellarAgeWeights.calc_age_weights_from_sfh_table t S A t_obs sfr_min i) S :=
  ((C101_age_weights_grad (θ := S) (fun _ => Traced.lit _) (fun j => Traced.var j) (fun _ => Traced.lit _) (Traced.lit _) (Traced.lit _)
    ht h0 hs hr hA hyoung hold i).weaken fun h => ⟨h, Or.inl ⟨Fixed.const _, Fixed.const _, Fixed.const _⟩⟩).gradOk

/-- C101: and with respect to the star formation rates (parameters `some i`) together with the time of observation (`none`). -/
theorem C101_age_weights_jax_grad (t S : Fin (n + 2) → ℝ) (A : Fin (m + 3) → ℝ) (t_obs sfr_min : ℝ) (ht : StrictMono t)
    (h0 : 0.001 < t 0) (hs : 0 < sfr_min) (hr : Jnp.Resolved fun i => Real.logb 10 (t i)) (hA : StrictMono A)
    (hyoung : t 0 < t_obs - (10:ℝ) ^ (get_lg_age_bin_edges A 0))
    (hold : t_obs - (10:ℝ) ^ (get_lg_age_bin_edges A (Fin.last (m + 3))) < t (Fin.last (n + 1))) (i : Fin (m + 3)) :
    GradOk ((∀ j, S j ≠ sfr_min) ∧ ∀ e j, birthTime t_obs (get_lg_age_bin_edges A e) ≠ t j)
      (Gen.calc_age_weights_from_sfh_table (fun j => Flt.lit (t j)) (fun j => Rv.var (some j) (fin (S j))) (fun j => Flt.lit (A j))
        (Rv.var none (fin t_obs)) (Flt.lit sfr_min) i)
      (fun θ : Option (Fin (n + 2)) → ℝ => StellarAgeWeights.calc_age_weights_from_sfh_table t (fun j => θ (some j)) A (θ none) sfr_min i)
      (fun o => o.elim t_obs S) :=
  ((C101_age_weights_grad (θ := fun o : Option (Fin (n + 2)) => o.elim t_obs S) (fun _ => Traced.lit _)
    (fun j => Traced.var (some j)) (fun _ => Traced.lit _) (Traced.var none) (Traced.lit _) ht h0 hs hr hA hyoung hold i).weaken
      fun h => ⟨h.1, Or.inr h.2⟩).gradOk

/-! ## C102: spectra -/

omit [DecidableEq ι] in
/-- C102: the gradients of the rest-frame SED are finite on inputs of the documented kind, whatever the star formation rates and the spectra,
and exact unless the inputs are at a kink: a star formation rate equal to a floor, an age bin edge born exactly at a table time, an observation exactly at a
table time.  All inputs come from any differentiable model. -/
theorem C102_sed_grad {t S : (ι → ℝ) → Fin (n + 2) → ℝ} {x sig : (ι → ℝ) → ℝ} {z : (ι → ℝ) → Fin (k + 3) → ℝ}
    {A : (ι → ℝ) → Fin (m + 3) → ℝ} {F : (ι → ℝ) → Fin (k + 3) → Fin (m + 3) → Fin w → ℝ} {T c : (ι → ℝ) → ℝ}
    {t' S' : Fin (n + 2) → Rv ι} {x' sig' : Rv ι} {z' : Fin (k + 3) → Rv ι} {A' : Fin (m + 3) → Rv ι}
    {F' : Fin (k + 3) → Fin (m + 3) → Fin w → Rv ι} {T' c' : Rv ι} (ht' : ∀ i, Traced True (t' i) (fun θ => t θ i) θ)
    (hS : ∀ i, Traced True (S' i) (fun θ => S θ i) θ) (hx : Traced True x' x θ) (hsig : Traced True sig' sig θ)
    (hz : ∀ i, Traced True (z' i) (fun θ => z θ i) θ) (hA' : ∀ i, Traced True (A' i) (fun θ => A θ i) θ)
    (hF : ∀ i j l, Traced True (F' i j l) (fun θ => F θ i j l) θ)
    (hT : Traced True T' T θ) (hc : Traced True c' c θ) (ht : StrictMono (t θ)) (h0 : 0.001 < t θ 0) (hc0 : 0 < c θ)
    (hr : Jnp.Resolved (fun i => Real.logb 10 (t θ i))) (hA : StrictMono (A θ))
    (hyoung : t θ 0 < T θ - (10:ℝ) ^ (get_lg_age_bin_edges (A θ) 0))
    (hold : T θ - (10:ℝ) ^ (get_lg_age_bin_edges (A θ) (Fin.last (m + 3))) < t θ (Fin.last (n + 1)))
    (hpos : 0 < sig θ) (hmono : StrictMono (Utils.get_bin_edges (z θ) (-10) 10)) (l : Fin w) :
    Traced (NoAgeKink t S A T (fun _ => SFR_MIN) θ ∧ (∀ i, S θ i ≠ c θ) ∧ ((Fixed t θ ∧ Fixed T θ) ∨ ∀ j, T θ ≠ t θ j))
      (Gen.calc_rest_sed_sfh_table_lognormal_mdf t' S' x' sig' z' A' F' T' c' l)
      (fun θ => (SspWeights.calc_rest_sed_sfh_table_lognormal_mdf (t θ) (S θ) (x θ) (sig θ) (z θ) (A θ) (F θ) (T θ) (c θ)).rest_sed l) θ := by
  have hSF : (0:ℝ) < SFR_MIN := by norm_num [SFR_MIN]
  have hage := fun i => (C101_age_weights_grad ht' hS hA' hT (Traced.lit SFR_MIN) ht h0 hSF hr hA hyoung hold i).weaken
    (s' := NoAgeKink t S A T (fun _ => SFR_MIN) θ ∧ (∀ i, S θ i ≠ c θ) ∧ ((Fixed t θ ∧ Fixed T θ) ∨ ∀ j, T θ ≠ t θ j)) And.left
  have hmet := fun i => (C100_lgmet_weights_grad hx hsig hz hpos hmono i).weaken
    (s' := NoAgeKink t S A T (fun _ => SFR_MIN) θ ∧ (∀ i, S θ i ≠ c θ) ∧ ((Fixed t θ ∧ Fixed T θ) ∨ ∀ j, T θ ≠ t θ j)) fun _ => trivial
  have hage1 := C17_age_weights_sum (t θ) (S θ) (A θ) (T θ) SFR_MIN hSF ht h0 hr hA hyoung hold
  have hmet1 := (C21_lgmet_weights_prob_partial (x θ) (sig θ) hpos (z θ) hmono.monotone).2
  have htot : SspWeights.sum2 (fun (i : Fin (k + 3)) (j : Fin (m + 3)) =>
      MetallicityWeights.calc_lgmet_weights_from_lognormal_mdf (x θ) (sig θ) (z θ) i *
      StellarAgeWeights.calc_age_weights_from_sfh_table (t θ) (S θ) (A θ) (T θ) SFR_MIN j) ≠ 0 := by
    rw [sum2_eq]
    simp only [← Finset.mul_sum, hage1, mul_one, hmet1]
    norm_num
  have hobs : 0 < T θ := by
    have := Real.rpow_pos_of_pos (show (0:ℝ) < 10 by norm_num) (get_lg_age_bin_edges (A θ) 0)
    norm_num at h0
    linarith
  have hW := traced_ssp_weights (fun i _ => hmet i) hage htot
  exact (traced_sum2 fun i j => ((hF i j l).weaken fun _ => trivial).mul (hW i j)).mul
    ((traced_mstar_obs ht' hS hT hc ht h0 hc0 hobs hr).weaken fun h => ⟨trivial, h.2.1, h.2.2⟩)

omit [DecidableEq ι] in
/-- C102: the same with a metallicity history: the ages of the grid themselves must not be born exactly at a table time. -/
theorem C102_sed_met_table_grad {t S f : (ι → ℝ) → Fin (n + 2) → ℝ} {sig : (ι → ℝ) → ℝ} {z : (ι → ℝ) → Fin (k + 3) → ℝ}
    {A : (ι → ℝ) → Fin (m + 3) → ℝ} {F : (ι → ℝ) → Fin (k + 3) → Fin (m + 3) → Fin w → ℝ} {T c : (ι → ℝ) → ℝ}
    {t' S' f' : Fin (n + 2) → Rv ι} {sig' : Rv ι} {z' : Fin (k + 3) → Rv ι} {A' : Fin (m + 3) → Rv ι}
    {F' : Fin (k + 3) → Fin (m + 3) → Fin w → Rv ι} {T' c' : Rv ι} (ht' : ∀ i, Traced True (t' i) (fun θ => t θ i) θ)
    (hS : ∀ i, Traced True (S' i) (fun θ => S θ i) θ) (hf : ∀ i, Traced True (f' i) (fun θ => f θ i) θ) (hsig : Traced True sig' sig θ)
    (hz : ∀ i, Traced True (z' i) (fun θ => z θ i) θ) (hA' : ∀ i, Traced True (A' i) (fun θ => A θ i) θ)
    (hF : ∀ i j l, Traced True (F' i j l) (fun θ => F θ i j l) θ)
    (hT : Traced True T' T θ) (hc : Traced True c' c θ) (ht : StrictMono (t θ)) (h0 : 0.001 < t θ 0) (hc0 : 0 < c θ)
    (hr : Jnp.Resolved (fun i => Real.logb 10 (t θ i))) (hA : StrictMono (A θ))
    (hyoung : t θ 0 < T θ - (10:ℝ) ^ (get_lg_age_bin_edges (A θ) 0))
    (hold : T θ - (10:ℝ) ^ (get_lg_age_bin_edges (A θ) (Fin.last (m + 3))) < t θ (Fin.last (n + 1)))
    (hpos : 0 < sig θ) (hmono : StrictMono (Utils.get_bin_edges (z θ) (-10) 10)) (l : Fin w) :
    Traced (NoAgeKink t S A T (fun _ => SFR_MIN) θ ∧ (∀ i, S θ i ≠ c θ) ∧ ((Fixed t θ ∧ Fixed A θ ∧ Fixed T θ) ∨
        ((∀ j, T θ ≠ t θ j) ∧ ∀ i j, birthTime (T θ) (A θ i) ≠ t θ j)))
      (Gen.calc_rest_sed_sfh_table_met_table t' S' f' sig' z' A' F' T' c' l)
      (fun θ => (SspWeights.calc_rest_sed_sfh_table_met_table (t θ) (S θ) (f θ) (sig θ) (z θ) (A θ) (F θ) (T θ) (c θ)).rest_sed l) θ := by
  have hSF : (0:ℝ) < SFR_MIN := by norm_num [SFR_MIN]
  have hage := fun i => (C101_age_weights_grad ht' hS hA' hT (Traced.lit SFR_MIN) ht h0 hSF hr hA hyoung hold i).weaken
    (s' := NoAgeKink t S A T (fun _ => SFR_MIN) θ ∧ (∀ i, S θ i ≠ c θ) ∧ ((Fixed t θ ∧ Fixed A θ ∧ Fixed T θ) ∨
        ((∀ j, T θ ≠ t θ j) ∧ ∀ i j, birthTime (T θ) (A θ i) ≠ t θ j))) And.left
  have hmet := fun i (j : Fin (m + 3)) => (traced_lgmet_table (m := m + 2) ht' hf hsig hz hA' hT hpos
      (edges_const hmono) ht h0 hr i j).weaken
    (s' := NoAgeKink t S A T (fun _ => SFR_MIN) θ ∧ (∀ i, S θ i ≠ c θ) ∧ ((Fixed t θ ∧ Fixed A θ ∧ Fixed T θ) ∨
        ((∀ j, T θ ≠ t θ j) ∧ ∀ i j, birthTime (T θ) (A θ i) ≠ t θ j))) fun h => ⟨trivial, h.2.2.imp id And.right⟩
  have hage1 := C17_age_weights_sum (t θ) (S θ) (A θ) (T θ) SFR_MIN hSF ht h0 hr hA hyoung hold
  have hmet1 := (C22_lgmet_table_weights_partial (m := m + 2) (t θ) (f θ) (sig θ) hpos (z θ) (A θ) (T θ) hmono.monotone).2.1
  have htot : SspWeights.sum2 (fun (i : Fin (k + 3)) (j : Fin (m + 3)) =>
      MetallicityWeights.calc_lgmet_weights_from_lgmet_table (t θ) (f θ) (sig θ) (z θ) (A θ) (T θ) i j *
      StellarAgeWeights.calc_age_weights_from_sfh_table (t θ) (S θ) (A θ) (T θ) SFR_MIN j) ≠ 0 := by
    rw [sum2_eq, Finset.sum_comm]
    simp only [← Finset.sum_mul]
    simp only [hmet1, ← Finset.mul_sum, hage1]
    positivity
  have hobs : 0 < T θ := by
    have := Real.rpow_pos_of_pos (show (0:ℝ) < 10 by norm_num) (get_lg_age_bin_edges (A θ) 0)
    norm_num at h0
    linarith
  have hW := traced_ssp_weights (a := k + 3) (b := m + 3) hmet hage htot
  have h1 := traced_sum2 fun i j => ((hF i j l).weaken fun _ => trivial).mul (hW i j)
  have h2 := h1.mul ((traced_mstar_obs ht' hS hT hc ht h0 hc0 hobs hr).weaken
    fun h => ⟨trivial, h.2.1, h.2.2.imp (fun h => ⟨h.1, h.2.2⟩) And.left⟩)
  unfold Gen.calc_rest_sed_sfh_table_met_table SspWeights.calc_rest_sed_sfh_table_met_table
    SspWeights.calc_ssp_weights_sfh_table_met_table
  simp only
  convert h2 using 3

/-- C102: in particular `jax.grad` with respect to the star formation rates (parameters `inl i`), the metallicity (`inr 0`) and its scatter
(`inr 1`): exact as soon as no star formation rate equals a floor. -/
theorem C102_sed_jax_grad (t S : Fin (n + 2) → ℝ) (gal_lgmet scatter : ℝ) (z : Fin (k + 3) → ℝ) (A : Fin (m + 3) → ℝ)
    (flux : Fin (k + 3) → Fin (m + 3) → Fin w → ℝ) (t_obs sfr_min : ℝ) (ht : StrictMono t) (h0 : 0.001 < t 0) (hs : 0 < sfr_min)
    (hr : Jnp.Resolved fun i => Real.logb 10 (t i)) (hA : StrictMono A)
    (hyoung : t 0 < t_obs - (10:ℝ) ^ (get_lg_age_bin_edges A 0))
    (hold : t_obs - (10:ℝ) ^ (get_lg_age_bin_edges A (Fin.last (m + 3))) < t (Fin.last (n + 1)))
    (hpos : 0 < scatter) (hmono : StrictMono (Utils.get_bin_edges z (-10) 10)) (l : Fin w) :
    GradOk (∀ i, S i ≠ SFR_MIN ∧ S i ≠ sfr_min)
      (Gen.calc_rest_sed_sfh_table_lognormal_mdf (fun j => Flt.lit (t j)) (fun j => Rv.var (Sum.inl j) (fin (S j)))
        (Rv.var (Sum.inr (0 : Fin 2)) (fin gal_lgmet)) (Rv.var (Sum.inr 1) (fin scatter)) (fun j => Flt.lit (z j))
        (fun j => Flt.lit (A j)) (fun i j l => Flt.lit (flux i j l)) (Flt.lit t_obs) (Flt.lit sfr_min) l)
      (fun θ : Fin (n + 2) ⊕ Fin 2 → ℝ => (SspWeights.calc_rest_sed_sfh_table_lognormal_mdf t (fun j => θ (Sum.inl j)) (θ (Sum.inr 0))
        (θ (Sum.inr 1)) z A flux t_obs sfr_min).rest_sed l)
      (Sum.elim S ![gal_lgmet, scatter]) :=
  ((C102_sed_grad (θ := Sum.elim S ![gal_lgmet, scatter]) (fun _ => Traced.lit _) (fun j => Traced.var (Sum.inl j))
    (Traced.var (Sum.inr 0)) (Traced.var (Sum.inr 1)) (fun _ => Traced.lit _) (fun _ => Traced.lit _) (fun _ _ _ => Traced.lit _)
    (Traced.lit _) (Traced.lit _) ht h0 hs hr hA hyoung hold hpos hmono l).weaken
    fun h => ⟨⟨fun i => (h i).1, Or.inl ⟨Fixed.const _, Fixed.const _, Fixed.const _⟩⟩, fun i => (h i).2,
      Or.inl ⟨Fixed.const _, Fixed.const _⟩⟩).gradOk

/-- C102: the same with a metallicity history: star formation rates (`inl (inl i)`), metallicities (`inl (inr i)`) and the scatter
(`inr ()`). -/
theorem C102_sed_met_table_jax_grad (t S f : Fin (n + 2) → ℝ) (scatter : ℝ) (z : Fin (k + 3) → ℝ) (A : Fin (m + 3) → ℝ)
    (flux : Fin (k + 3) → Fin (m + 3) → Fin w → ℝ) (t_obs sfr_min : ℝ) (ht : StrictMono t) (h0 : 0.001 < t 0) (hs : 0 < sfr_min)
    (hr : Jnp.Resolved fun i => Real.logb 10 (t i)) (hA : StrictMono A)
    (hyoung : t 0 < t_obs - (10:ℝ) ^ (get_lg_age_bin_edges A 0))
    (hold : t_obs - (10:ℝ) ^ (get_lg_age_bin_edges A (Fin.last (m + 3))) < t (Fin.last (n + 1)))
    (hpos : 0 < scatter) (hmono : StrictMono (Utils.get_bin_edges z (-10) 10)) (l : Fin w) :
    GradOk (∀ i, S i ≠ SFR_MIN ∧ S i ≠ sfr_min)
      (Gen.calc_rest_sed_sfh_table_met_table (fun j => Flt.lit (t j)) (fun j => Rv.var (Sum.inl (Sum.inl j)) (fin (S j)))
        (fun j => Rv.var (Sum.inl (Sum.inr j)) (fin (f j))) (Rv.var (Sum.inr ()) (fin scatter)) (fun j => Flt.lit (z j))
        (fun j => Flt.lit (A j)) (fun i j l => Flt.lit (flux i j l)) (Flt.lit t_obs) (Flt.lit sfr_min) l)
      (fun θ : (Fin (n + 2) ⊕ Fin (n + 2)) ⊕ Unit → ℝ => (SspWeights.calc_rest_sed_sfh_table_met_table t (fun j => θ (Sum.inl (Sum.inl j)))
        (fun j => θ (Sum.inl (Sum.inr j))) (θ (Sum.inr ())) z A flux t_obs sfr_min).rest_sed l)
      (Sum.elim (Sum.elim S f) fun _ => scatter) :=
  ((C102_sed_met_table_grad (θ := Sum.elim (Sum.elim S f) fun _ => scatter) (fun _ => Traced.lit _) (fun j => Traced.var (Sum.inl (Sum.inl j)))
    (fun j => Traced.var (Sum.inl (Sum.inr j))) (Traced.var (Sum.inr ())) (fun _ => Traced.lit _) (fun _ => Traced.lit _) (fun _ _ _ => Traced.lit _)
    (Traced.lit _) (Traced.lit _) ht h0 hs hr hA hyoung hold hpos hmono l).weaken
    fun h => ⟨⟨fun i => (h i).1, Or.inl ⟨Fixed.const _, Fixed.const _, Fixed.const _⟩⟩, fun i => (h i).2,
      Or.inl ⟨Fixed.const _, Fixed.const _, Fixed.const _⟩⟩).gradOk

omit [Jnp.Dtype] in
/-- non-vacuity of C101 and C102: table 1, 10, 100 Gyr, ages 0.01, 0.1, 1 Gyr, metallicities -4, -3.5, .., -2, observed at 14.5 Gyr; no
birth time is a table time. -/
example : ∃ (t : Fin 3 → ℝ) (A : Fin 3 → ℝ) (z : Fin 5 → ℝ), StrictMono t ∧ 0.001 < t 0 ∧
    (@Jnp.Resolved 1 Jnp.Dtype.float64 fun i => Real.logb 10 (t i)) ∧ StrictMono A ∧ StrictMono (Utils.get_bin_edges z (-10) 10) ∧
    t 0 < 14.5 - (10:ℝ) ^ (get_lg_age_bin_edges A 0) ∧ 14.5 - (10:ℝ) ^ (get_lg_age_bin_edges A (Fin.last (0 + 3))) < t (Fin.last (1 + 1)) ∧
    (∀ e j, birthTime 14.5 (get_lg_age_bin_edges A e) ≠ t j) ∧ ∀ j, (14.5:ℝ) ≠ t j := by
  have hmild := mildlySpaced_uniform (n := 0) (-2) 1 one_pos
  have hm := C17_age_edges_mono _ hmild
  have h4 : (10:ℝ) ^ (0.5:ℝ) < 4 := by
    rw [show (0.5:ℝ) = 1 / 2 by norm_num, ← Real.sqrt_eq_rpow, Real.sqrt_lt' (by norm_num)]; norm_num
  have hb : ∀ e, (10:ℝ) ^ (get_lg_age_bin_edges (fun i : Fin 3 => (-2:ℝ) + i * 1) e) < 4 := fun e =>
    lt_of_le_of_lt (Real.rpow_le_rpow_of_exponent_le (by norm_num) ((hm.monotone (Fin.le_last e)).trans age_edges_example.2.le)) h4
  have hp : ∀ e, 0 < (10:ℝ) ^ (get_lg_age_bin_edges (fun i : Fin 3 => (-2:ℝ) + i * 1) e) := fun e => by positivity
  refine ⟨fun i => (10:ℝ) ^ (i : ℕ), fun i => (-2:ℝ) + i * 1, fun i => -4 + i * 0.5, strictMono_pow10 3, by norm_num, resolved_pow10 1,
    hmild.1, (C05_edges_bracket_uniform (n := 2) (-4) 0.5 (by norm_num) (-10) 10 (by norm_num) (by norm_num)).1, ?_, ?_, ?_, ?_⟩
  · have := hb 0; norm_num at this ⊢; linarith
  · have := hp (Fin.last 3); norm_num at this ⊢; linarith
  · intro e j h
    have h1 := hb e
    have h2 := hp e
    have h3 : birthTime 14.5 (get_lg_age_bin_edges (fun i : Fin 3 => (-2:ℝ) + i * 1) e) =
        14.5 - (10:ℝ) ^ (get_lg_age_bin_edges (fun i : Fin 3 => (-2:ℝ) + i * 1) e) := max_eq_right (by norm_num at h1 ⊢; linarith)
    rw [h3] at h
    clear h3
    generalize (10:ℝ) ^ (get_lg_age_bin_edges (fun i : Fin 3 => (-2:ℝ) + i * 1) e) = q at h h1 h2
    fin_cases j <;> norm_num at h <;> linarith
  · intro j; fin_cases j <;> norm_num

end Dsps.Props

namespace Dsps.Props
open Rev XF Dsps.Lemmas Dsps.Constants Spec

section
attribute [local instance] Jnp.Dtype.float64
theorem caseZ_strict : StrictMono (Utils.get_bin_edges (n := 2) caseZ (-10) 10) :=
  (C05_edges_bracket_partial (n := 2) caseZ caseZ_mild (-10) 10 caseZ_lo caseZ_hi).1
/-- C100, C101, C102 applied to the inputs of the examples of C17 and C25 -/
example (i : Fin 5) := C100_lgmet_weights_grad (k := 2) (θ := ![-2.6, 0.2]) (x := fun θ => θ 0) (sig := fun θ => θ 1) (z := fun _ => caseZ)
  (Traced.var 0) (Traced.var 1) (fun _ => Traced.lit _) (by norm_num) caseZ_strict i
example (i : Fin 3) := C101_age_weights_grad (n := 1) (m := 0) (θ := fun _ : Unit => 13) (t := fun _ => caseT) (S := fun _ => caseS)
  (A := fun _ => caseA) (T := fun θ => θ ()) (c := fun _ => 1e-14) (fun _ => Traced.lit _) (fun _ => Traced.lit _) (fun _ => Traced.lit _)
  (Traced.var ()) (Traced.lit _) caseT_mono caseT_zero (by norm_num) caseT_resolved caseA_mono case_young case_old i
example (i : Fin 3) := C101_age_weights_sfh_grad (n := 1) (m := 0) caseT caseS caseA 13 1e-14 caseT_mono caseT_zero (by norm_num)
  caseT_resolved caseA_mono case_young case_old i
example (i : Fin 3) := C101_age_weights_jax_grad (n := 1) (m := 0) caseT caseS caseA 13 1e-14 caseT_mono caseT_zero (by norm_num)
  caseT_resolved caseA_mono case_young case_old i
example (l : Fin 2) := C102_sed_grad (n := 1) (m := 0) (k := 2) (θ := ![13, -2.6, 0.2]) (t := fun _ => caseT) (S := fun _ => caseS)
  (A := fun _ => caseA) (z := fun _ => caseZ) (F := fun _ => caseF) (x := fun θ => θ 1) (sig := fun θ => θ 2) (T := fun θ => θ 0)
  (c := fun _ => 1e-14) (fun _ => Traced.lit _) (fun _ => Traced.lit _) (Traced.var 1) (Traced.var 2) (fun _ => Traced.lit _)
  (fun _ => Traced.lit _) (fun _ _ _ => Traced.lit _) (Traced.var 0) (Traced.lit _) caseT_mono caseT_zero (by norm_num) caseT_resolved
  caseA_mono case_young case_old (by simp; norm_num) caseZ_strict l
example (l : Fin 2) := C102_sed_met_table_grad (n := 1) (m := 0) (k := 2) (θ := ![13, 0.2]) (t := fun _ => caseT) (S := fun _ => caseS)
  (f := fun _ => caseZT) (A := fun _ => caseA) (z := fun _ => caseZ) (F := fun _ => caseF) (sig := fun θ => θ 1) (T := fun θ => θ 0)
  (c := fun _ => 1e-14) (fun _ => Traced.lit _) (fun _ => Traced.lit _) (fun _ => Traced.lit _) (Traced.var 1) (fun _ => Traced.lit _)
  (fun _ => Traced.lit _) (fun _ _ _ => Traced.lit _) (Traced.var 0) (Traced.lit _) caseT_mono caseT_zero (by norm_num) caseT_resolved
  caseA_mono case_young case_old (by norm_num) caseZ_strict l
theorem caseS_exact (i : Fin 3) : caseS i ≠ SFR_MIN ∧ caseS i ≠ 1e-14 := by fin_cases i <;> norm_num [caseS, SFR_MIN]
example (l : Fin 2) := C102_sed_jax_grad (n := 1) (m := 0) (k := 2) caseT caseS (-2.6) 0.2 caseZ caseA caseF 13 1e-14 caseT_mono caseT_zero
  (by norm_num) caseT_resolved caseA_mono case_young case_old (by norm_num) caseZ_strict l
example (l : Fin 2) := C102_sed_met_table_jax_grad (n := 1) (m := 0) (k := 2) caseT caseS caseZT 0.2 caseZ caseA caseF 13 1e-14 caseT_mono
  caseT_zero (by norm_num) caseT_resolved caseA_mono case_young case_old (by norm_num) caseZ_strict l
end

end Dsps.Props
