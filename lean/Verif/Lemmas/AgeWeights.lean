import Verif.Model.SspWeights
import Verif.SpecAge
import Verif.Lemmas.Interp
import Verif.Props.Triweight
import Verif.Props.Utils

/-! Lemmas about stellar age weights. -/
namespace Dsps.Lemmas
open Dsps.Utils Dsps.StellarAgeWeights Dsps.Constants Jnp Spec
open scoped BigOperators

variable {n m : ℕ}

theorem exp10_pos (x : ℝ) : 0 < exp10 x := Real.rpow_pos_of_pos (by norm_num) _
theorem exp10_strictMono : StrictMono exp10 := fun _ _ h => Real.rpow_lt_rpow_of_exponent_lt (by norm_num) h
theorem exp10_log10 {x : ℝ} (h : 0 < x) : exp10 (log10 x) = x := Real.rpow_logb (by norm_num) (by norm_num) h
theorem log10_exp10 (x : ℝ) : log10 (exp10 x) = x := Real.logb_rpow (by norm_num) (by norm_num)
theorem log10_lt {x y : ℝ} (hx : 0 < x) (h : x < y) : log10 x < log10 y := Real.logb_lt_logb (by norm_num) hx h
theorem log10_le {x y : ℝ} (hx : 0 < x) (h : x ≤ y) : log10 x ≤ log10 y := Real.logb_le_logb_of_le (by norm_num) hx h

theorem get_lgt_birth_eq (t_obs a : ℝ) : get_lgt_birth t_obs a = log10 (birthTime t_obs a) := by
  unfold get_lgt_birth
  simp only
  split_ifs with h
  · exact congrArg log10 (max_eq_left h.le).symm
  · exact congrArg log10 (max_eq_right (not_lt.mp h)).symm

theorem floor_eq (s : Fin n → ℝ) (sfr_min : ℝ) :
    (fun i => if s i < sfr_min then sfr_min else s i) = fun i => max sfr_min (s i) := by
  funext i
  split_ifs with h
  · rw [max_eq_left h.le]
  · rw [max_eq_right (not_lt.mp h)]

theorem calc_logsm_eq (t s : Fin n → ℝ) (sfr_min : ℝ) :
    calc_logsm_table_from_sfh_table t s sfr_min =
      fun i => log10 (cumulative_mstar_formed t (fun j => max sfr_min (s j)) i) := by
  simp only [calc_logsm_table_from_sfh_table, floor_eq]

theorem massFormed_eq [Dtype] (t s : Fin (n + 2) → ℝ) (sfr_min τ : ℝ) :
    massFormed t s sfr_min τ = exp10 (interp (log10 τ) (fun i => log10 (t i))
      (calc_logsm_table_from_sfh_table t s sfr_min)) := by
  rw [calc_logsm_eq]; rfl

/-- the age-bin edges are those of `_get_bin_edges` with the extrapolated limits -/
theorem lg_age_edges_eq (a : Fin (m + 3) → ℝ) :
    get_lg_age_bin_edges a = get_bin_edges a (a 0 - (a 1 - a 0) / 2)
      (a (Fin.last (m + 2)) + jax_get_dt_array a (Fin.last (m + 2)) / 2) := rfl

theorem age_weights_eq [Dtype] (t s : Fin (n + 2) → ℝ) (a : Fin (m + 3) → ℝ) (t_obs sfr_min : ℝ) (i : Fin (m + 3)) :
    calc_age_weights_from_sfh_table t s a t_obs sfr_min i =
      (massFormed t s sfr_min (birthTime t_obs (get_lg_age_bin_edges a i.castSucc))
        - massFormed t s sfr_min (birthTime t_obs (get_lg_age_bin_edges a i.succ))) /
      (massFormed t s sfr_min (birthTime t_obs (get_lg_age_bin_edges a 0))
        - massFormed t s sfr_min (birthTime t_obs (get_lg_age_bin_edges a (Fin.last (m + 3))))) := by
  simp only [calc_age_weights_from_sfh_table, calc_age_weights_from_logsm_table, massFormed_eq, get_lgt_birth_eq,
    diff, tail, init, Jnp.sum, neg_sub]
  rw [sum_telescope' (fun i => exp10 (interp (log10 (birthTime t_obs (get_lg_age_bin_edges a i)))
    (fun i => log10 (t i)) (calc_logsm_table_from_sfh_table t s sfr_min)))]

theorem birthTime_pos (t_obs a : ℝ) : 0 < birthTime t_obs a := lt_max_of_lt_left (by norm_num)

theorem birthTime_anti (t_obs : ℝ) : Antitone (birthTime t_obs) := fun _ _ h =>
  max_le_max le_rfl (sub_le_sub_left (exp10_strictMono.monotone h) _)

section
set_option linter.unusedSectionVars false
variable [Dtype] {t s : Fin (n + 2) → ℝ} {sfr_min : ℝ}

theorem logsm_strictMono (ht : StrictMono t) (ht0 : 0.001 < t 0) (hs : 0 < sfr_min) :
    StrictMono (calc_logsm_table_from_sfh_table t s sfr_min) := by
  rw [calc_logsm_eq]
  have h := Dsps.Props.C12_mstar_pos_strictMono t (fun j => max sfr_min (s j)) ht ht0
    (fun i => lt_max_of_lt_left hs)
  intro i j hij
  exact log10_lt (h.1 i) (h.2 hij)

theorem t_pos (ht : StrictMono t) (ht0 : 0.001 < t 0) (i : Fin (n + 2)) : 0 < t i :=
  lt_of_lt_of_le (by linarith [show (0:ℝ) < 0.001 by norm_num]) (ht.monotone (Fin.zero_le i))

theorem lgt_strictMono (ht : StrictMono t) (ht0 : 0.001 < t 0) : StrictMono fun i => log10 (t i) := by
  intro i j hij
  exact log10_lt (t_pos ht ht0 i) (ht hij)

theorem massFormed_pos (τ : ℝ) : 0 < massFormed t s sfr_min τ := exp10_pos _

theorem massFormed_mono (ht : StrictMono t) (ht0 : 0.001 < t 0) (hs : 0 < sfr_min) {τ τ' : ℝ} (h0 : 0 < τ) (h : τ ≤ τ') :
    massFormed t s sfr_min τ ≤ massFormed t s sfr_min τ' := by
  rw [massFormed_eq, massFormed_eq]
  apply exp10_strictMono.monotone
  exact interp_mono (lgt_strictMono ht ht0).monotone (logsm_strictMono ht ht0 hs).monotone (log10_le h0 h)

theorem massFormed_table (ht : StrictMono t) (ht0 : 0.001 < t 0) (hs : 0 < sfr_min)
    (hr : Resolved fun i => log10 (t i)) (k : Fin (n + 2)) :
    massFormed t s sfr_min (t k) = cumulative_mstar_formed t (fun j => max sfr_min (s j)) k := by
  rw [massFormed_eq, interp_node hr (calc_logsm_table_from_sfh_table t s sfr_min) k, calc_logsm_eq]
  exact exp10_log10 ((Dsps.Props.C12_mstar_pos_strictMono t _ ht ht0 (fun i => lt_max_of_lt_left hs)).1 k)

theorem massFormed_before (ht : StrictMono t) (ht0 : 0.001 < t 0) {τ : ℝ} (h0 : 0 < τ) (h : τ ≤ t 0) :
    massFormed t s sfr_min τ = massFormed t s sfr_min (t 0) := by
  have hm := (lgt_strictMono ht ht0).monotone
  rcases h.lt_or_eq with h | h
  · rw [massFormed_eq, massFormed_eq]
    have a : interp (log10 τ) (fun i => log10 (t i)) (calc_logsm_table_from_sfh_table t s sfr_min) = _ :=
      interp_of_lt hm (log10_lt h0 h)
    rw [a]
    obtain ⟨σ, _, _, c⟩ := interpBody_convex hm (x := log10 (t 0)) le_rfl (hm (Fin.zero_le _))
    unfold interp
    rw [interp_of_mem (xp := fun i => log10 (t i)) le_rfl (hm (Fin.zero_le _))]
    have hc : interpCell (fun i => log10 (t i)) (log10 (t 0)) = 0 :=
      interpCell_eq hm 0 le_rfl (lgt_strictMono ht ht0 (by simp))
    unfold interpBody
    simp [hc]
  · rw [h]

theorem massFormed_after (ht : StrictMono t) (ht0 : 0.001 < t 0) (hr : Resolved fun i => log10 (t i)) {τ : ℝ}
    (h : t (Fin.last (n + 1)) ≤ τ) :
    massFormed t s sfr_min τ = massFormed t s sfr_min (t (Fin.last (n + 1))) := by
  rcases h.lt_or_eq with h | h
  · rw [massFormed_eq, massFormed_eq,
      interp_node hr (calc_logsm_table_from_sfh_table t s sfr_min) (Fin.last (n + 1))]
    have a : interp (log10 τ) (fun i => log10 (t i)) (calc_logsm_table_from_sfh_table t s sfr_min) = _ :=
      interp_of_gt (log10_lt (t_pos ht ht0 _) h)
    rw [a]; rfl
  · rw [h]

theorem massFormed_strictMonoOn (ht : StrictMono t) (ht0 : 0.001 < t 0) (hs : 0 < sfr_min)
    (hr : Resolved fun i => log10 (t i)) {τ τ' : ℝ} (h0 : t 0 ≤ τ) (h : τ < τ') (h1 : τ' ≤ t (Fin.last (n + 1))) :
    massFormed t s sfr_min τ < massFormed t s sfr_min τ' := by
  have hp : 0 < τ := lt_of_lt_of_le (t_pos ht ht0 0) h0
  rw [massFormed_eq, massFormed_eq]
  apply exp10_strictMono
  exact interp_strictMonoOn hr (logsm_strictMono ht ht0 hs)
    ⟨log10_le (t_pos ht ht0 0) h0, log10_le hp (h.le.trans h1)⟩
    ⟨log10_le (t_pos ht ht0 0) (h0.trans h.le), log10_le (hp.trans h) h1⟩ (log10_lt hp h)

/-- mass strictly between two times, exactly when some of the interval overlaps the table -/
theorem massFormed_lt_iff (ht : StrictMono t) (ht0 : 0.001 < t 0) (hs : 0 < sfr_min)
    (hr : Resolved fun i => log10 (t i)) {τ τ' : ℝ} (hp : 0 < τ) (h : τ < τ') :
    massFormed t s sfr_min τ < massFormed t s sfr_min τ' ↔ t 0 < τ' ∧ τ < t (Fin.last (n + 1)) := by
  constructor
  · intro hlt
    constructor
    · by_contra hc
      push Not at hc
      rw [massFormed_before ht ht0 hp (h.le.trans hc), massFormed_before ht ht0 (hp.trans h) hc] at hlt
      exact lt_irrefl _ hlt
    · by_contra hc
      push Not at hc
      rw [massFormed_after ht ht0 hr hc, massFormed_after ht ht0 hr (hc.trans h.le)] at hlt
      exact lt_irrefl _ hlt
  · rintro ⟨h1, h2⟩
    have h01 : t 0 < t (Fin.last (n + 1)) := ht (by simp [Fin.lt_def])
    have a : massFormed t s sfr_min τ ≤ massFormed t s sfr_min (max (t 0) τ) :=
      massFormed_mono ht ht0 hs hp (le_max_right _ _)
    have b : massFormed t s sfr_min (min τ' (t (Fin.last (n + 1)))) ≤ massFormed t s sfr_min τ' :=
      massFormed_mono ht ht0 hs (lt_min (hp.trans h) (t_pos ht ht0 _)) (min_le_left _ _)
    refine lt_of_le_of_lt a (lt_of_lt_of_le ?_ b)
    apply massFormed_strictMonoOn ht ht0 hs hr (le_max_left _ _) _ (min_le_right _ _)
    exact max_lt (lt_min h1 h01) (lt_min h h2)

end
end Dsps.Lemmas
