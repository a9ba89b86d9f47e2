import Verif.Lemmas.Smooth
import Verif.Props.SspWeights
import Verif.Lemmas.InterpCont
import Mathlib.Analysis.SpecialFunctions.Pow.Continuity
import Mathlib.Analysis.SpecialFunctions.Log.Base
import Verif.Cases

/-! Properties C90-: smoothness and continuity of the weights in the galaxy parameters. -/
namespace Dsps.Props
open Dsps.Utils Dsps.Lemmas Dsps.MetallicityWeights Dsps.StellarAgeWeights Dsps.SspWeights Dsps.Constants Jnp Set Filter Topology Spec

variable {n m k w : ℕ}

theorem tw_kern_contDiffAt (c : ℝ) (p : ℝ × ℝ) (hp : 0 < p.2) :
    ContDiffAt ℝ 3 (fun p : ℝ × ℝ => tw_cuml_kern p.1 c p.2) p := by
  have e : (fun p : ℝ × ℝ => tw_cuml_kern p.1 c p.2) = fun p => twC ((p.1 - c) / p.2) := by
    funext p; exact tw_cuml_kern_eq _ _ _
  rw [e]
  exact contDiff_twC.contDiffAt.comp p ((contDiffAt_fst.sub contDiffAt_const).div contDiffAt_snd hp.ne')

theorem tw_hist_contDiffAt (e : Fin (n + 1) → ℝ) (i : Fin n) (p : ℝ × ℝ) (hp : 0 < p.2) :
    ContDiffAt ℝ 3 (fun p : ℝ × ℝ => triweighted_histogram p.1 p.2 e i) p :=
  (tw_kern_contDiffAt _ p hp).sub (tw_kern_contDiffAt _ p hp)

theorem triweights_of_sum_ne (x sig : ℝ) (e : Fin (n + 2) → ℝ) (hS : ∑ i, triweighted_histogram x sig e i ≠ 0) (i : Fin (n + 1)) :
    get_triweights_singlepoint x sig e i = triweighted_histogram x sig e i / ∑ i, triweighted_histogram x sig e i := by
  have hsum : Jnp.sum (triweighted_histogram x sig e) = ∑ i, triweighted_histogram x sig e i := rfl
  have hnz : ¬ ∀ i, triweighted_histogram x sig e i / (∑ i, triweighted_histogram x sig e i) = 0 := by
    intro h
    have h2 : ∑ i, triweighted_histogram x sig e i / (∑ i, triweighted_histogram x sig e i) = 1 := by
      rw [← Finset.sum_div]; exact div_self hS
    rw [Finset.sum_eq_zero (fun i _ => h i)] at h2
    norm_num at h2
  unfold get_triweights_singlepoint fill_empty_weights_singlepoint
  simp only [hsum, hS, if_false, hnz, false_and]

theorem tw_hist_sum_pos (x sig : ℝ) (hs : 0 < sig) (e : Fin (n + 2) → ℝ) (he : e 0 < e (Fin.last _))
    (h0 : e 0 - 3 * sig < x) (h1 : x < e (Fin.last _) + 3 * sig) : 0 < ∑ i, triweighted_histogram x sig e i := by
  rw [tw_hist_sum, tw_cuml_kern_eq, tw_cuml_kern_eq, sub_pos]
  have a : -3 < (x - e 0) / sig := by rw [lt_div_iff₀ hs]; linarith
  have b : (x - e (Fin.last _)) / sig < 3 := by rw [div_lt_iff₀ hs]; linarith
  have c : (x - e (Fin.last _)) / sig < (x - e 0) / sig := by gcongr
  by_cases h2 : (x - e (Fin.last _)) / sig ≤ -3
  · rw [twC_of_le h2]; exact twC_pos a
  by_cases h3 : 3 ≤ (x - e 0) / sig
  · rw [twC_of_ge h3]; exact twC_lt_one b
  push Not at h2 h3
  exact twC_strictMonoOn ⟨h2.le, b.le⟩ ⟨a.le, h3.le⟩ c

/-- the weights near the low edge of the grid: everything in the first bin -/
theorem triweights_low (x sig : ℝ) (hs : 0 < sig) (e : Fin (n + 2) → ℝ) (he : StrictMono e)
    (h1 : x < e 1 - 3 * sig) (i : Fin (n + 1)) :
    get_triweights_singlepoint x sig e i = if i = 0 then 1 else 0 := by
  have hlt : e 0 < e (Fin.last _) := he (Fin.last_pos)
  by_cases hx : x + 3 * sig ≤ e 0
  · rw [(C04_triweights_outside x sig hs e he.monotone hlt).1 hx]
  push Not at hx
  have hle : e 1 ≤ e (Fin.last _) := he.monotone (Fin.le_last _)
  have hz : ∀ i : Fin (n + 1), i ≠ 0 → triweighted_histogram x sig e i = 0 := fun i hi =>
    C03_far_bin_zero x sig hs e he.monotone i (Or.inr (by
      have : e 1 ≤ e i.castSucc := he.monotone (by
        rw [Fin.le_def, Fin.val_castSucc]; exact Nat.one_le_iff_ne_zero.2 fun h => hi (Fin.ext h))
      linarith))
  have hS : ∑ i, triweighted_histogram x sig e i = triweighted_histogram x sig e 0 :=
    Finset.sum_eq_single 0 (fun b _ hb => hz b hb) (by simp)
  have hpos := tw_hist_sum_pos x sig hs e hlt (by linarith) (by linarith)
  rw [triweights_of_sum_ne x sig e hpos.ne', hS]
  rw [hS] at hpos
  split_ifs with h
  · subst h; exact div_self hpos.ne'
  · rw [hz i h, zero_div]

theorem triweights_high (x sig : ℝ) (hs : 0 < sig) (e : Fin (n + 2) → ℝ) (he : StrictMono e)
    (h1 : e (Fin.last n).castSucc + 3 * sig < x) (i : Fin (n + 1)) :
    get_triweights_singlepoint x sig e i = if i = Fin.last n then 1 else 0 := by
  have hlt : e 0 < e (Fin.last _) := he (Fin.last_pos)
  by_cases hx : e (Fin.last _) ≤ x - 3 * sig
  · rw [(C04_triweights_outside x sig hs e he.monotone hlt).2 hx]
  push Not at hx
  have hle : e 0 ≤ e (Fin.last n).castSucc := he.monotone (Fin.zero_le _)
  have hz : ∀ i : Fin (n + 1), i ≠ Fin.last n → triweighted_histogram x sig e i = 0 := fun i hi =>
    C03_far_bin_zero x sig hs e he.monotone i (Or.inl (by
      have : e i.succ ≤ e (Fin.last n).castSucc := he.monotone (by
        rw [Fin.le_def]; have := Fin.lt_last_iff_ne_last.2 hi; simpa [Fin.lt_def] using this)
      linarith))
  have hS : ∑ i, triweighted_histogram x sig e i = triweighted_histogram x sig e (Fin.last n) :=
    Finset.sum_eq_single (Fin.last n) (fun b _ hb => hz b hb) (by simp)
  have hpos := tw_hist_sum_pos x sig hs e hlt (by linarith) (by linarith)
  rw [triweights_of_sum_ne x sig e hpos.ne', hS]
  rw [hS] at hpos
  split_ifs with h
  · subst h; exact div_self hpos.ne'
  · rw [hz i h, zero_div]

theorem triweights_contDiffAt (e : Fin (n + 2) → ℝ) (he : StrictMono e) (i : Fin (n + 1)) (p : ℝ × ℝ) (hp : 0 < p.2) :
    ContDiffAt ℝ 3 (fun p : ℝ × ℝ => get_triweights_singlepoint p.1 p.2 e i) p := by
  by_cases hl : p.1 ≤ e 0 - 3 * p.2
  · refine contDiffAt_const (c := if i = 0 then (1:ℝ) else 0) |>.congr_of_eventuallyEq ?_
    have a1 : ∀ᶠ q : ℝ × ℝ in 𝓝 p, 0 < q.2 := (isOpen_lt continuous_const continuous_snd).mem_nhds hp
    have a2 : ∀ᶠ q : ℝ × ℝ in 𝓝 p, q.1 < e 0 := (isOpen_lt continuous_fst continuous_const).mem_nhds (by show p.1 < e 0; linarith)
    have a3 : ∀ᶠ q : ℝ × ℝ in 𝓝 p, q.1 < e 1 - 3 * q.2 :=
      (isOpen_lt continuous_fst (by fun_prop)).mem_nhds (by show p.1 < e 1 - 3 * p.2; have := he (show (0 : Fin (n+2)) < 1 by exact Fin.zero_lt_one); linarith)
    filter_upwards [a1, a2, a3] with q h1 h2 h3
    exact triweights_low _ _ h1 e he h3 i
  by_cases hh : e (Fin.last _) + 3 * p.2 ≤ p.1
  · refine contDiffAt_const (c := if i = Fin.last n then (1:ℝ) else 0) |>.congr_of_eventuallyEq ?_
    have a1 : ∀ᶠ q : ℝ × ℝ in 𝓝 p, 0 < q.2 := (isOpen_lt continuous_const continuous_snd).mem_nhds hp
    have a2 : ∀ᶠ q : ℝ × ℝ in 𝓝 p, e (Fin.last _) < q.1 :=
      (isOpen_lt continuous_const continuous_fst).mem_nhds (by show _ < p.1; linarith)
    have a3 : ∀ᶠ q : ℝ × ℝ in 𝓝 p, e (Fin.last n).castSucc + 3 * q.2 < q.1 :=
      (isOpen_lt (by fun_prop) continuous_fst).mem_nhds (by
        show _ < p.1; have := he (Fin.castSucc_lt_last (Fin.last n)); linarith)
    filter_upwards [a1, a2, a3] with q h1 h2 h3
    exact triweights_high _ _ h1 e he h3 i
  push Not at hl hh
  have hopen : ∀ᶠ q : ℝ × ℝ in 𝓝 p, 0 < q.2 ∧ e 0 - 3 * q.2 < q.1 ∧ q.1 < e (Fin.last _) + 3 * q.2 := by
    have a1 : ∀ᶠ q : ℝ × ℝ in 𝓝 p, 0 < q.2 := (isOpen_lt continuous_const continuous_snd).mem_nhds hp
    have a2 : ∀ᶠ q : ℝ × ℝ in 𝓝 p, e 0 - 3 * q.2 < q.1 := (isOpen_lt (by fun_prop) continuous_fst).mem_nhds hl
    have a3 : ∀ᶠ q : ℝ × ℝ in 𝓝 p, q.1 < e (Fin.last _) + 3 * q.2 := (isOpen_lt continuous_fst (by fun_prop)).mem_nhds hh
    exact a1.and (a2.and a3)
  refine ContDiffAt.congr_of_eventuallyEq (f := fun q : ℝ × ℝ =>
    triweighted_histogram q.1 q.2 e i / ∑ i, triweighted_histogram q.1 q.2 e i) ?_ ?_
  · exact (tw_hist_contDiffAt e i p hp).div (ContDiffAt.sum fun i _ => tw_hist_contDiffAt e i p hp)
      (tw_hist_sum_pos p.1 p.2 hp e (he Fin.last_pos) hl hh).ne'
  · filter_upwards [hopen] with q hq
    exact triweights_of_sum_ne _ _ e (tw_hist_sum_pos q.1 q.2 hq.1 e (he Fin.last_pos) hq.2.1 hq.2.2).ne' i

/-- C90: for every increasing edge grid the metallicity weights are three times continuously differentiable in the galaxy
metallicity and scatter jointly, everywhere in the half plane scatter > 0: also where the distribution leaves the grid and the
weights are filled in by hand. -/
theorem C90_lgmet_weights_smooth (e : Fin (k + 2) → ℝ) (he : StrictMono e) (i : Fin (k + 1)) :
    ContDiffOn ℝ 3 (fun p : ℝ × ℝ => get_lgmet_weights_singlegal p.1 p.2 e i) {p | 0 < p.2} :=
  fun p hp => (triweights_contDiffAt e he i p hp).contDiffWithinAt

/-- C90 for the public function on a mildly spaced metallicity grid. -/
theorem C90_lognormal_mdf_smooth (z : Fin (k + 3) → ℝ) (hz : MildlySpaced z) (hlo : -10 < z 0) (hhi : z (Fin.last (k + 2)) < 10)
    (i : Fin (k + 3)) :
    ContDiffOn ℝ 3 (fun p : ℝ × ℝ => calc_lgmet_weights_from_lognormal_mdf p.1 p.2 z i) {p | 0 < p.2} :=
  C90_lgmet_weights_smooth _ (lgmet_edges_mono z hz hlo hhi) i

/-! ## C91: continuity of age weights and SEDs -/

section
variable {X : Type*} [TopologicalSpace X] {x0 : X} [Dtype]

theorem cumtrapz_continuousAt {N : ℕ} (t : Fin (N + 1) → ℝ) {s : X → Fin (N + 1) → ℝ} (hs : ContinuousAt s x0) (i : Fin (N + 1)) :
    ContinuousAt (fun x => cumtrapz t (s x) i) x0 := by
  induction i using Fin.induction with
  | zero => simp only [cumtrapz_zero]; exact continuousAt_const
  | succ k ih =>
    simp only [cumtrapz_succ]
    have h1 := (continuousAt_pi.1 hs k.castSucc)
    have h2 := (continuousAt_pi.1 hs k.succ)
    fun_prop

theorem mstar_continuousAt {N : ℕ} (t : Fin N → ℝ) {s : X → Fin N → ℝ} (hs : ContinuousAt s x0) (i : Fin N) :
    ContinuousAt (fun x => cumulative_mstar_formed t (s x) i) x0 := by
  simp only [cumulative_mstar_formed, Jnp.tail]
  refine ContinuousAt.mul (cumtrapz_continuousAt _ (continuousAt_pi.2 fun j => ?_) _) continuousAt_const
  refine Fin.cases ?_ (fun j => ?_) j
  · simp only [setTail, setAt]; simp; exact continuousAt_const
  · simp only [setTail]; simp; exact continuousAt_pi.1 hs j

theorem massFormed_continuousAt {t : Fin (n + 2) → ℝ} {s : X → Fin (n + 2) → ℝ} {τ : X → ℝ} {c : ℝ} (hc : 0 < c)
    (ht : StrictMono t) (ht0 : 0.001 < t 0) (hr : Resolved fun i => Real.logb 10 (t i))
    (hs : ContinuousAt s x0) (hτ : ContinuousAt τ x0) (hpos : 0 < τ x0) :
    ContinuousAt (fun x => massFormed t (s x) c (τ x)) x0 := by
  unfold massFormed
  refine (Real.continuousAt_const_rpow (a := 10) (by norm_num)).comp ?_
  have h1 : ContinuousAt (fun x => Real.logb 10 (τ x)) x0 := by
    unfold Real.logb; exact (hτ.log hpos.ne').div_const _
  have hfl : ContinuousAt (fun x => fun j => max c (s x j)) x0 :=
    continuousAt_pi.2 fun j => continuousAt_const.max (continuousAt_pi.1 hs j)
  have h2 : ContinuousAt (fun x => fun i => Real.logb 10 (cumulative_mstar_formed t (fun j => max c (s x j)) i)) x0 := by
    refine continuousAt_pi.2 fun i => ?_
    unfold Real.logb
    refine ((mstar_continuousAt t hfl i).log (ne_of_gt ?_)).div_const _
    exact (C12_mstar_pos_strictMono t _ ht ht0 (fun i => lt_max_of_lt_left hc)).1 i
  exact (continuous_interp hr).continuousAt.comp (f := fun x => (Real.logb 10 (τ x),
    fun i => Real.logb 10 (cumulative_mstar_formed t (fun j => max c (s x j)) i))) (h1.prodMk h2)

theorem birthTime_continuous (a : ℝ) : Continuous fun t_obs => birthTime t_obs a := by unfold birthTime; fun_prop

theorem age_weights_continuousAt {t : Fin (n + 2) → ℝ} {s : X → Fin (n + 2) → ℝ} {T : X → ℝ} {c : ℝ} (hc : 0 < c)
    (ht : StrictMono t) (ht0 : 0.001 < t 0) (hr : Resolved fun i => Real.logb 10 (t i)) {a : Fin (m + 3) → ℝ} (ha : StrictMono a)
    (hyoung : t 0 < T x0 - (10:ℝ) ^ (get_lg_age_bin_edges a 0))
    (hold : T x0 - (10:ℝ) ^ (get_lg_age_bin_edges a (Fin.last (m + 3))) < t (Fin.last (n + 1)))
    (hs : ContinuousAt s x0) (hT : ContinuousAt T x0) (i : Fin (m + 3)) :
    ContinuousAt (fun x => calc_age_weights_from_sfh_table t (s x) a (T x) c i) x0 := by
  simp only [age_weights_eq]
  have hM : ∀ e : ℝ, ContinuousAt (fun x => massFormed t (s x) c (birthTime (T x) e)) x0 := fun e =>
    massFormed_continuousAt hc ht ht0 hr hs ((birthTime_continuous e).continuousAt.comp hT) (birthTime_pos _ _)
  exact ((hM _).sub (hM _)).div ((hM _).sub (hM _))
    ((C17_total_mass_pos_iff t (s x0) a (T x0) c hc ht ht0 hr ha).2.2 ⟨hyoung, hold⟩).ne'

theorem mstar_obs_continuousAt {t : Fin (n + 2) → ℝ} {s : X → Fin (n + 2) → ℝ} {T : X → ℝ} {c : ℝ} (hc : 0 < c)
    (ht : StrictMono t) (ht0 : 0.001 < t 0) (hr : Resolved fun i => Real.logb 10 (t i)) (hT0 : 0 < T x0)
    (hs : ContinuousAt s x0) (hT : ContinuousAt T x0) : ContinuousAt (fun x => mstar_obs t (s x) (T x) c) x0 := by
  have e : (fun x => mstar_obs t (s x) (T x) c) = fun x => massFormed t (s x) c (T x) := by
    funext x; rw [massFormed_eq]; rfl
  rw [e]
  exact massFormed_continuousAt hc ht ht0 hr hs hT hT0

theorem lgmet_continuousAt {x sig : X → ℝ} (hx : ContinuousAt x x0) (hsig : ContinuousAt sig x0) (hpos : 0 < sig x0)
    (z : Fin (k + 3) → ℝ) (hz : MildlySpaced z) (hlo : -10 < z 0) (hhi : z (Fin.last (k + 2)) < 10) (i : Fin (k + 3)) :
    ContinuousAt (fun y => calc_lgmet_weights_from_lognormal_mdf (x y) (sig y) z i) x0 :=
  ((triweights_contDiffAt _ (lgmet_edges_mono z hz hlo hhi) i (x x0, sig x0) hpos).continuousAt).comp
    (f := fun y => (x y, sig y)) (hx.prodMk hsig)

theorem sum2_continuousAt {a b : ℕ} {f : X → Fin a → Fin b → ℝ} (h : ∀ i j, ContinuousAt (fun x => f x i j) x0) :
    ContinuousAt (fun x => sum2 (f x)) x0 := by
  simp only [sum2_eq]
  exact tendsto_finset_sum _ fun i _ => tendsto_finset_sum _ fun j _ => h i j

theorem norm_continuousAt {a b : ℕ} {f : X → Fin a → Fin b → ℝ} (h : ∀ i j, ContinuousAt (fun x => f x i j) x0)
    (hne : ∑ i, ∑ j, f x0 i j ≠ 0) (i : Fin a) (j : Fin b) : ContinuousAt (fun x => f x i j / sum2 (f x)) x0 :=
  (h i j).div (sum2_continuousAt h) (by rw [sum2_eq]; exact hne)

end

/-- C91: the age weights are jointly continuous in the star formation history (every table entry, also across the floor
`sfr_min`) and the time of observation, wherever the age bins meet the table. -/
theorem C91_age_weights_continuous [Dtype] (t : Fin (n + 2) → ℝ) (ht : StrictMono t) (ht0 : 0.001 < t 0)
    (hr : Resolved fun i => Real.logb 10 (t i)) (a : Fin (m + 3) → ℝ) (ha : StrictMono a) (sfr_min : ℝ) (hs : 0 < sfr_min)
    (i : Fin (m + 3)) :
    ContinuousOn (fun p : (Fin (n + 2) → ℝ) × ℝ => calc_age_weights_from_sfh_table t p.1 a p.2 sfr_min i)
      {p | t 0 < p.2 - (10:ℝ) ^ (get_lg_age_bin_edges a 0) ∧
        p.2 - (10:ℝ) ^ (get_lg_age_bin_edges a (Fin.last (m + 3))) < t (Fin.last (n + 1))} :=
  fun _ hp => (age_weights_continuousAt hs ht ht0 hr ha hp.1 hp.2 continuousAt_fst continuousAt_snd i).continuousWithinAt

/-- C91: the rest-frame SED (lognormal MDF) at every wavelength, and the joint weights, are jointly continuous in the star formation
history, metallicity, scatter and time of observation. -/
theorem C91_sed_lognormal_continuous [Dtype] (t : Fin (n + 2) → ℝ) (ht : StrictMono t) (ht0 : 0.001 < t 0)
    (hr : Resolved fun i => Real.logb 10 (t i)) (a : Fin (m + 3) → ℝ) (ha : StrictMono a) (sfr_min : ℝ) (hs : 0 < sfr_min)
    (z : Fin (k + 3) → ℝ) (hz : MildlySpaced z) (hlo : -10 < z 0) (hhi : z (Fin.last (k + 2)) < 10)
    (flux : Fin (k + 3) → Fin (m + 3) → Fin w → ℝ) :
    let D : Set ((Fin (n + 2) → ℝ) × ℝ × ℝ × ℝ) := {p | 0 < p.2.2.1 ∧ t 0 < p.2.2.2 - (10:ℝ) ^ (get_lg_age_bin_edges a 0) ∧
        p.2.2.2 - (10:ℝ) ^ (get_lg_age_bin_edges a (Fin.last (m + 3))) < t (Fin.last (n + 1))}
    (∀ i j, ContinuousOn (fun p => (calc_rest_sed_sfh_table_lognormal_mdf t p.1 p.2.1 p.2.2.1 z a flux p.2.2.2 sfr_min).weights i j) D) ∧
    ∀ l, ContinuousOn (fun p => (calc_rest_sed_sfh_table_lognormal_mdf t p.1 p.2.1 p.2.2.1 z a flux p.2.2.2 sfr_min).rest_sed l) D := by
  intro D
  have hmin : (0:ℝ) < SFR_MIN := by norm_num [SFR_MIN]
  have key : ∀ p ∈ D, ∀ i j, ContinuousAt (fun p : (Fin (n + 2) → ℝ) × ℝ × ℝ × ℝ =>
      (calc_ssp_weights_sfh_table_lognormal_mdf t p.1 p.2.1 p.2.2.1 z a p.2.2.2).weights i j) p := by
    intro p hp i j
    have hA : ∀ j, ContinuousAt (fun p : (Fin (n + 2) → ℝ) × ℝ × ℝ × ℝ => calc_age_weights_from_sfh_table t p.1 a p.2.2.2 SFR_MIN j) p :=
      fun j => age_weights_continuousAt (T := fun p : (Fin (n + 2) → ℝ) × ℝ × ℝ × ℝ => p.2.2.2) hmin ht ht0 hr ha hp.2.1 hp.2.2
        continuousAt_fst (by fun_prop) j
    have hL : ∀ i, ContinuousAt (fun p : (Fin (n + 2) → ℝ) × ℝ × ℝ × ℝ => calc_lgmet_weights_from_lognormal_mdf p.2.1 p.2.2.1 z i) p :=
      fun i => lgmet_continuousAt (by fun_prop) (sig := fun p : (Fin (n + 2) → ℝ) × ℝ × ℝ × ℝ => p.2.2.1) (by fun_prop) hp.1 z hz hlo hhi i
    refine norm_continuousAt (f := fun (p : (Fin (n + 2) → ℝ) × ℝ × ℝ × ℝ) i j => calc_lgmet_weights_from_lognormal_mdf p.2.1 p.2.2.1 z i *
      calc_age_weights_from_sfh_table t p.1 a p.2.2.2 SFR_MIN j) (fun i j => (hL i).mul (hA j)) ?_ i j
    rw [← Finset.sum_mul_sum, C17_age_weights_sum t p.1 a p.2.2.2 SFR_MIN hmin ht ht0 hr ha hp.2.1 hp.2.2,
      (C21_lgmet_weights_prob_mild_partial p.2.1 p.2.2.1 hp.1 z hz hlo hhi).2]
    norm_num
  refine ⟨fun i j p hp => (key p hp i j).continuousWithinAt, fun l p hp => ContinuousAt.continuousWithinAt ?_⟩
  have hT0 : 0 < p.2.2.2 := by
    have := hp.2.1
    have h1 : (0:ℝ) < (10:ℝ) ^ (get_lg_age_bin_edges a 0) := by positivity
    linarith [show (0:ℝ) < 0.001 by norm_num]
  refine ContinuousAt.mul (sum2_continuousAt fun i j => continuousAt_const.mul (key p hp i j)) ?_
  exact mstar_obs_continuousAt (T := fun p : (Fin (n + 2) → ℝ) × ℝ × ℝ × ℝ => p.2.2.2) hs ht ht0 hr hT0 continuousAt_fst (by fun_prop)

/-- C91: the same for the metallicity-table variant, jointly also in every entry of the metallicity history. -/
theorem C91_sed_met_table_continuous [Dtype] (t : Fin (n + 2) → ℝ) (ht : StrictMono t) (ht0 : 0.001 < t 0)
    (hr : Resolved fun i => Real.logb 10 (t i)) (a : Fin (m + 3) → ℝ) (ha : StrictMono a) (sfr_min : ℝ) (hs : 0 < sfr_min)
    (z : Fin (k + 3) → ℝ) (hz : MildlySpaced z) (hlo : -10 < z 0) (hhi : z (Fin.last (k + 2)) < 10)
    (flux : Fin (k + 3) → Fin (m + 3) → Fin w → ℝ) :
    let D : Set ((Fin (n + 2) → ℝ) × (Fin (n + 2) → ℝ) × ℝ × ℝ) := {p | 0 < p.2.2.1 ∧
        t 0 < p.2.2.2 - (10:ℝ) ^ (get_lg_age_bin_edges a 0) ∧
        p.2.2.2 - (10:ℝ) ^ (get_lg_age_bin_edges a (Fin.last (m + 3))) < t (Fin.last (n + 1))}
    (∀ i j, ContinuousOn (fun p => (calc_rest_sed_sfh_table_met_table t p.1 p.2.1 p.2.2.1 z a flux p.2.2.2 sfr_min).weights i j) D) ∧
    ∀ l, ContinuousOn (fun p => (calc_rest_sed_sfh_table_met_table t p.1 p.2.1 p.2.2.1 z a flux p.2.2.2 sfr_min).rest_sed l) D := by
  intro D
  have hmin : (0:ℝ) < SFR_MIN := by norm_num [SFR_MIN]
  have he : Monotone (get_bin_edges z (-10) 10) := by
    have := (lgmet_edges_mono z hz hlo hhi).monotone
    have e1 : LGMET_LO = -10 := by norm_num [LGMET_LO]
    have e2 : LGMET_HI = 10 := by norm_num [LGMET_HI]
    rwa [e1, e2] at this
  have key : ∀ p ∈ D, ∀ i j, ContinuousAt (fun p : (Fin (n + 2) → ℝ) × (Fin (n + 2) → ℝ) × ℝ × ℝ =>
      (calc_ssp_weights_sfh_table_met_table t p.1 p.2.1 p.2.2.1 z a p.2.2.2).weights i j) p := by
    intro p hp i j
    have hA : ∀ j, ContinuousAt (fun p : (Fin (n + 2) → ℝ) × (Fin (n + 2) → ℝ) × ℝ × ℝ =>
        calc_age_weights_from_sfh_table t p.1 a p.2.2.2 SFR_MIN j) p :=
      fun j => age_weights_continuousAt (T := fun p : (Fin (n + 2) → ℝ) × (Fin (n + 2) → ℝ) × ℝ × ℝ => p.2.2.2) hmin ht ht0 hr ha
        hp.2.1 hp.2.2 continuousAt_fst (by fun_prop) j
    have hL : ∀ i j, ContinuousAt (fun p : (Fin (n + 2) → ℝ) × (Fin (n + 2) → ℝ) × ℝ × ℝ =>
        calc_lgmet_weights_from_lgmet_table t p.2.1 p.2.2.1 z a p.2.2.2 i j) p := by
      intro i j
      simp only [C22_lgmet_table_columns]
      refine ContinuousAt.div_const (lgmet_continuousAt ?_
        (sig := fun p : (Fin (n + 2) → ℝ) × (Fin (n + 2) → ℝ) × ℝ × ℝ => p.2.2.1) (by fun_prop) hp.1 z hz hlo hhi i) _
      refine (continuous_interp hr).continuousAt.comp (f := fun p : (Fin (n + 2) → ℝ) × (Fin (n + 2) → ℝ) × ℝ × ℝ =>
        (Real.logb 10 (birthTime p.2.2.2 (a j)), p.2.1)) (ContinuousAt.prodMk ?_ (by fun_prop))
      unfold Real.logb
      refine (ContinuousAt.log (f := fun p : (Fin (n + 2) → ℝ) × (Fin (n + 2) → ℝ) × ℝ × ℝ => birthTime p.2.2.2 (a j)) ?_
        (birthTime_pos _ _).ne').div_const _
      exact ((birthTime_continuous (a j)).comp (by fun_prop)).continuousAt
    refine norm_continuousAt (f := fun (p : (Fin (n + 2) → ℝ) × (Fin (n + 2) → ℝ) × ℝ × ℝ) i j =>
      calc_lgmet_weights_from_lgmet_table t p.2.1 p.2.2.1 z a p.2.2.2 i j *
      calc_age_weights_from_sfh_table t p.1 a p.2.2.2 SFR_MIN j) (fun i j => (hL i j).mul (hA j)) ?_ i j
    have hcol := (C22_lgmet_table_weights_partial (m := m + 2) t p.2.1 p.2.2.1 hp.1 z a p.2.2.2 he).2.1
    rw [Finset.sum_comm]
    simp only [← Finset.sum_mul, hcol]
    rw [← Finset.mul_sum, C17_age_weights_sum t p.1 a p.2.2.2 SFR_MIN hmin ht ht0 hr ha hp.2.1 hp.2.2]
    positivity
  refine ⟨fun i j p hp => (key p hp i j).continuousWithinAt, fun l p hp => ContinuousAt.continuousWithinAt ?_⟩
  have hT0 : 0 < p.2.2.2 := by
    have := hp.2.1
    have h1 : (0:ℝ) < (10:ℝ) ^ (get_lg_age_bin_edges a 0) := by positivity
    linarith [show (0:ℝ) < 0.001 by norm_num]
  refine ContinuousAt.mul (sum2_continuousAt fun i j => continuousAt_const.mul (key p hp i j)) ?_
  exact mstar_obs_continuousAt (T := fun p : (Fin (n + 2) → ℝ) × (Fin (n + 2) → ℝ) × ℝ × ℝ => p.2.2.2) hs ht ht0 hr hT0
    continuousAt_fst (by fun_prop)

/-- non-vacuity of C90 and C91: table 1, 10, 100 Gyr, ages 0.01, 0.1, 1 Gyr, metallicities -4, -3.5, .., -2, any SFH, observed at 13 Gyr. -/
example (s : Fin 3 → ℝ) : ∃ (t : Fin 3 → ℝ) (a : Fin 3 → ℝ) (z : Fin 5 → ℝ), StrictMono t ∧ 0.001 < t 0 ∧
    (@Resolved 1 Dtype.float64 fun i => Real.logb 10 (t i)) ∧ StrictMono a ∧ MildlySpaced z ∧ -10 < z 0 ∧ z (Fin.last 4) < 10 ∧
    ((s, -3, 0.2, 13) : (Fin 3 → ℝ) × ℝ × ℝ × ℝ) ∈ {p : (Fin 3 → ℝ) × ℝ × ℝ × ℝ | 0 < p.2.2.1 ∧ t 0 < p.2.2.2 - (10:ℝ) ^ (get_lg_age_bin_edges a 0) ∧
        p.2.2.2 - (10:ℝ) ^ (get_lg_age_bin_edges a (Fin.last (0 + 3))) < t (Fin.last (1 + 1))} := by
  refine ⟨fun i => (10:ℝ) ^ (i : ℕ), fun i => (-2:ℝ) + i * 1, fun i => -4 + i * 0.5, strictMono_pow10 3, by norm_num, resolved_pow10 1,
    fun i j h => ?_, mildlySpaced_uniform (n := 2) (-4) 0.5 (by norm_num), by norm_num, by norm_num, by norm_num, ?_, ?_⟩
  · have : (i : ℝ) < j := by exact_mod_cast h
    linarith
  · rw [age_edges_example.1]
    have : (10:ℝ) ^ (-2.5:ℝ) < (10:ℝ) ^ (0:ℝ) := Real.rpow_lt_rpow_of_exponent_lt (by norm_num) (by norm_num)
    norm_num at this ⊢
    linarith
  · have := Real.rpow_pos_of_pos (show (0:ℝ) < 10 by norm_num) (get_lg_age_bin_edges (fun i : Fin 3 => (-2:ℝ) + i * 1) (Fin.last 3))
    norm_num at this ⊢
    linarith

end Dsps.Props

namespace Dsps.Props
open Dsps.Utils Dsps.Lemmas Dsps.MetallicityWeights Dsps.StellarAgeWeights Dsps.SspWeights Dsps.Constants Jnp Set Filter Topology Spec

section
attribute [local instance] Dtype.float64
/-- C90 and C91 applied to the inputs of the examples of C17 and C25 -/
example (i : Fin 2) := C90_lgmet_weights_smooth (k := 1) ![-3, -2, -1] (Case.sm3 (by norm_num) (by norm_num)) i
example (i : Fin 5) := C90_lognormal_mdf_smooth (k := 2) caseZ caseZ_mild caseZ_lo caseZ_hi i
example (i : Fin 3) := (C91_age_weights_continuous (n := 1) (m := 0) caseT caseT_mono caseT_zero caseT_resolved caseA caseA_mono 1e-14
  (by norm_num) i).continuousWithinAt (x := (caseS, 13)) ⟨case_young, case_old⟩
example := C91_sed_lognormal_continuous (n := 1) (m := 0) (k := 2) caseT caseT_mono caseT_zero caseT_resolved caseA caseA_mono 1e-14
  (by norm_num) caseZ caseZ_mild caseZ_lo caseZ_hi caseF
example := C91_sed_met_table_continuous (n := 1) (m := 0) (k := 2) caseT caseT_mono caseT_zero caseT_resolved caseA caseA_mono 1e-14
  (by norm_num) caseZ caseZ_mild caseZ_lo caseZ_hi caseF
end

end Dsps.Props
