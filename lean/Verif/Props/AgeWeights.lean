import Verif.Lemmas.AgeWeights
import Verif.Cases

/-! Properties C17–C20: stellar age weights (`/repo/dsps/sed/stellar_age_weights.py`). -/
namespace Dsps.Props
open Dsps.Utils Dsps.Lemmas Dsps.StellarAgeWeights Dsps.Constants Jnp Spec Set
open scoped BigOperators

variable {n m : ℕ} [Dtype]

/-! ## C20 -/

/-- C20: the weight of bin `i` is the mass formed between the birth times of its two edges divided by the total. -/
theorem C20_weight_is_mass_share (t s : Fin (n + 2) → ℝ) (a : Fin (m + 3) → ℝ) (t_obs sfr_min : ℝ) (i : Fin (m + 3)) :
    let e := get_lg_age_bin_edges a
    calc_age_weights_from_sfh_table t s a t_obs sfr_min i =
      (massFormed t s sfr_min (birthTime t_obs (e i.castSucc)) - massFormed t s sfr_min (birthTime t_obs (e i.succ))) /
      (massFormed t s sfr_min (birthTime t_obs (e 0))
        - massFormed t s sfr_min (birthTime t_obs (e (Fin.last (m + 3))))) :=
  age_weights_eq t s a t_obs sfr_min i

/-- C20: sums over runs of bins `p, …, q-1` telescope to the mass formed between the outer edges of the run. -/
theorem C20_run_telescopes (t s : Fin (n + 2) → ℝ) (a : Fin (m + 3) → ℝ) (t_obs sfr_min : ℝ) (p q : Fin (m + 4)) (hpq : p ≤ q) :
    let e := get_lg_age_bin_edges a
    ∑ i : Fin (m + 3) with p ≤ i.castSucc ∧ i.castSucc < q, calc_age_weights_from_sfh_table t s a t_obs sfr_min i =
      (massFormed t s sfr_min (birthTime t_obs (e p)) - massFormed t s sfr_min (birthTime t_obs (e q))) /
      (massFormed t s sfr_min (birthTime t_obs (e 0))
        - massFormed t s sfr_min (birthTime t_obs (e (Fin.last (m + 3))))) := by
  intro e
  simp only [age_weights_eq, ← Finset.sum_div]
  congr 1
  induction q using Fin.induction with
  | zero =>
    have : p = 0 := le_antisymm hpq (Fin.zero_le _)
    subst this
    simp
  | succ k ih =>
    rcases hpq.lt_or_eq with h | h
    · have hpk : p ≤ k.castSucc := Fin.le_castSucc_iff.mpr h
      have : (Finset.univ.filter fun j : Fin (m + 3) => p ≤ j.castSucc ∧ j.castSucc < k.succ)
          = insert k (Finset.univ.filter fun j : Fin (m + 3) => p ≤ j.castSucc ∧ j.castSucc < k.castSucc) := by
        ext j
        simp only [Finset.mem_filter, Finset.mem_univ, true_and, Finset.mem_insert]
        simp only [Fin.lt_def, Fin.le_def, Fin.ext_iff] at *
        simp at *
        omega
      rw [this, Finset.sum_insert (by simp), ih hpk]
      ring
    · subst h
      rw [Finset.sum_eq_zero]
      · ring
      · intro j hj
        simp only [Finset.mem_filter] at hj
        exact absurd hj.2.2 (not_lt.mpr hj.2.1)

/-- C20: the mass history used is the log–log interpolation of the cumulative mass: it takes the value
`cumulative_mstar_formed` at the table times and follows a power law between consecutive table times. -/
theorem C20_mass_history (t s : Fin (n + 2) → ℝ) (sfr_min : ℝ) (ht : StrictMono t) (ht0 : 0.001 < t 0) (hs : 0 < sfr_min)
    (hr : Resolved fun i => Real.logb 10 (t i)) :
    (∀ k, massFormed t s sfr_min (t k) = cumulative_mstar_formed t (fun j => max sfr_min (s j)) k) ∧
    (∀ (k : Fin (n + 1)) (τ : ℝ), t k.castSucc ≤ τ → τ ≤ t k.succ →
      Real.logb 10 (massFormed t s sfr_min τ) =
        Real.logb 10 (massFormed t s sfr_min (t k.castSucc)) +
          (Real.logb 10 τ - Real.logb 10 (t k.castSucc)) / (Real.logb 10 (t k.succ) - Real.logb 10 (t k.castSucc)) *
          (Real.logb 10 (massFormed t s sfr_min (t k.succ)) - Real.logb 10 (massFormed t s sfr_min (t k.castSucc)))) := by
  have hr' : Resolved fun i => log10 (t i) := hr
  refine ⟨fun k => massFormed_table ht ht0 hs hr' k, fun k τ h0 h1 => ?_⟩
  have hp := t_pos ht ht0 k.castSucc
  have key : ∀ u, Real.logb 10 (massFormed t s sfr_min u) =
      interp (log10 u) (fun i => log10 (t i)) (calc_logsm_table_from_sfh_table t s sfr_min) := by
    intro u; rw [massFormed_eq]; exact log10_exp10 _
  rw [key, key, key, interp_node hr' _ k.castSucc, interp_node hr' _ k.succ,
    interp_cell hr' _ k (log10_le hp h0) (log10_le (hp.trans_le h0) h1)]
  rfl

/-! ## C17 -/

/-- C17, exact condition for the weights to be defined (the code divides by the total): for a table starting after
T_BIRTH_MIN and a positive SFR floor, the total mass in the age bins is positive **iff** the youngest bin edge was born
after the first table time and the oldest before the last table time.  Otherwise it is exactly zero and the code returns
0/0. -/
theorem C17_total_mass_pos_iff (t s : Fin (n + 2) → ℝ) (a : Fin (m + 3) → ℝ) (t_obs sfr_min : ℝ) (hs : 0 < sfr_min)
    (ht : StrictMono t) (ht0 : 0.001 < t 0) (hr : Resolved fun i => Real.logb 10 (t i)) (ha : StrictMono a) :
    let e := get_lg_age_bin_edges a
    let total := massFormed t s sfr_min (birthTime t_obs (e 0))
        - massFormed t s sfr_min (birthTime t_obs (e (Fin.last (m + 3))))
    0 ≤ total ∧
    (0 < total ↔ t 0 < t_obs - (10:ℝ) ^ (e 0) ∧ t_obs - (10:ℝ) ^ (e (Fin.last (m + 3))) < t (Fin.last (n + 1))) := by
  intro e total
  have hedge : e 0 < e (Fin.last (m + 3)) := by
    have h1 := C06_widths_pos a ha (Fin.last (m + 2))
    have h2 : a 0 < a 1 := ha (by simp)
    have h3 : a 0 ≤ a (Fin.last (m + 2)) := ha.monotone (Fin.zero_le _)
    have h4 : e 0 = a 0 - (a 1 - a 0) / 2 := by
      show get_lg_age_bin_edges a 0 = _
      rw [lg_age_edges_eq, edges_zero]
    have h5 : e (Fin.last (m + 3)) = a (Fin.last (m + 2)) + jax_get_dt_array a (Fin.last (m + 2)) / 2 := by
      show get_lg_age_bin_edges a _ = _
      rw [lg_age_edges_eq, edges_last]
    linarith
  have hle : birthTime t_obs (e (Fin.last (m + 3))) ≤ birthTime t_obs (e 0) := birthTime_anti _ hedge.le
  have h01 : t 0 < t (Fin.last (n + 1)) := ht (by simp [Fin.lt_def])
  have hb0 : t 0 < birthTime t_obs (e 0) ↔ t 0 < t_obs - (10:ℝ) ^ (e 0) := by
    unfold birthTime; rw [lt_max_iff]
    constructor
    · rintro (h | h)
      · linarith
      · exact h
    · exact Or.inr
  have hbL : birthTime t_obs (e (Fin.last (m + 3))) < t (Fin.last (n + 1)) ↔
      t_obs - (10:ℝ) ^ (e (Fin.last (m + 3))) < t (Fin.last (n + 1)) := by
    unfold birthTime; rw [max_lt_iff]
    exact ⟨fun h => h.2, fun h => ⟨by linarith, h⟩⟩
  refine ⟨sub_nonneg.mpr (massFormed_mono ht ht0 hs (birthTime_pos _ _) hle), ?_⟩
  rcases hle.lt_or_eq with hlt | heq
  · rw [sub_pos, massFormed_lt_iff ht ht0 hs hr (birthTime_pos _ _) hlt, hb0, hbL]
  · constructor
    · intro h; exfalso
      simp only [total, heq, sub_self, lt_irrefl] at h
    · rintro ⟨h1, _⟩
      exfalso
      have h3 := exp10_strictMono hedge
      have h4 := hb0.mpr h1
      have : birthTime t_obs (e (Fin.last (m + 3))) < birthTime t_obs (e 0) := by
        unfold birthTime at h4 ⊢
        have h5 : (0.001:ℝ) < t_obs - (10:ℝ) ^ (e 0) := by linarith
        exact max_lt (lt_max_of_lt_right h5) (lt_max_of_lt_right (sub_lt_sub_left h3 _))
      exact this.ne heq

/-- C17 (`_partial`; the property asks for every increasing age grid and every history in which stars can have formed).
The weights are a probability vector whenever the age-bin edges are non-decreasing and the bins overlap the time table.
What is missing is what is false of the code: grids with non-monotone edges (`C17_negative_weight`) and bins
entirely outside the table (0/0, see `C17_total_mass_pos_iff`). -/
theorem C17_age_weights_prob_partial (t s : Fin (n + 2) → ℝ) (a : Fin (m + 3) → ℝ) (t_obs sfr_min : ℝ) (hs : 0 < sfr_min)
    (ht : StrictMono t) (ht0 : 0.001 < t 0) (hr : Resolved fun i => Real.logb 10 (t i)) (ha : StrictMono a)
    (he : Monotone (get_lg_age_bin_edges a))
    (hyoung : t 0 < t_obs - (10:ℝ) ^ (get_lg_age_bin_edges a 0))
    (hold : t_obs - (10:ℝ) ^ (get_lg_age_bin_edges a (Fin.last (m + 3))) < t (Fin.last (n + 1))) :
    IsProbVector (calc_age_weights_from_sfh_table t s a t_obs sfr_min) := by
  have htot := (C17_total_mass_pos_iff t s a t_obs sfr_min hs ht ht0 hr ha).2.mpr ⟨hyoung, hold⟩
  constructor
  · intro i
    rw [age_weights_eq]
    refine div_nonneg (sub_nonneg.mpr ?_) htot.le
    exact massFormed_mono ht ht0 hs (birthTime_pos _ _) (birthTime_anti _ (he (Fin.castSucc_lt_succ (i := i)).le))
  · simp only [age_weights_eq, ← Finset.sum_div]
    rw [sum_telescope' (fun i => massFormed t s sfr_min (birthTime t_obs (get_lg_age_bin_edges a i)))]
    exact div_self htot.ne'

/-- C17: the sum is exactly one for *every* increasing age grid (even with non-monotone edges) once the total is non-zero. -/
theorem C17_age_weights_sum (t s : Fin (n + 2) → ℝ) (a : Fin (m + 3) → ℝ) (t_obs sfr_min : ℝ) (hs : 0 < sfr_min)
    (ht : StrictMono t) (ht0 : 0.001 < t 0) (hr : Resolved fun i => Real.logb 10 (t i)) (ha : StrictMono a)
    (hyoung : t 0 < t_obs - (10:ℝ) ^ (get_lg_age_bin_edges a 0))
    (hold : t_obs - (10:ℝ) ^ (get_lg_age_bin_edges a (Fin.last (m + 3))) < t (Fin.last (n + 1))) :
    ∑ i, calc_age_weights_from_sfh_table t s a t_obs sfr_min i = 1 := by
  have htot := (C17_total_mass_pos_iff t s a t_obs sfr_min hs ht ht0 hr ha).2.mpr ⟨hyoung, hold⟩
  simp only [age_weights_eq, ← Finset.sum_div]
  rw [sum_telescope' (fun i => massFormed t s sfr_min (birthTime t_obs (get_lg_age_bin_edges a i)))]
  exact div_self htot.ne'

omit [Dtype] in
/-- Age grids with mild spacing have strictly increasing age-bin edges. -/
theorem C17_age_edges_mono (a : Fin (m + 3) → ℝ) (ha : MildlySpaced a) : StrictMono (get_lg_age_bin_edges a) := by
  rw [lg_age_edges_eq]
  refine (C05_edges_bracket_partial a ha _ _ ?_ ?_).1
  · have : a 0 < a 1 := ha.1 (by simp)
    linarith
  · linarith [C06_widths_pos a ha.1 (Fin.last (m + 2))]

/-- C17 for every mildly spaced age grid (in particular every grid uniform in log age, such as those of FSPS) and the
default SFR floor. -/
theorem C17_age_weights_prob_mild_partial (t s : Fin (n + 2) → ℝ) (a : Fin (m + 3) → ℝ) (t_obs : ℝ)
    (ht : StrictMono t) (ht0 : 0.001 < t 0) (hr : Resolved fun i => Real.logb 10 (t i)) (ha : MildlySpaced a)
    (hyoung : t 0 < t_obs - (10:ℝ) ^ (get_lg_age_bin_edges a 0))
    (hold : t_obs - (10:ℝ) ^ (get_lg_age_bin_edges a (Fin.last (m + 3))) < t (Fin.last (n + 1))) :
    IsProbVector (calc_age_weights_from_sfh_table t s a t_obs) :=
  C17_age_weights_prob_partial t s a t_obs SFR_MIN (by norm_num [SFR_MIN]) ht ht0 hr ha.1 (C17_age_edges_mono a ha).monotone
    hyoung hold

/-! ## C18 -/

/-- C18: a bin whose younger edge was born at or before the first table time has exactly zero weight (zero mass in the
numerator of C20). -/
theorem C18_no_stars_before_table (t s : Fin (n + 2) → ℝ) (a : Fin (m + 3) → ℝ) (t_obs sfr_min : ℝ)
    (ht : StrictMono t) (ht0 : 0.001 < t 0) (i : Fin (m + 3))
    (hi : get_lg_age_bin_edges a i.castSucc ≤ get_lg_age_bin_edges a i.succ)
    (hold : t_obs - (10:ℝ) ^ (get_lg_age_bin_edges a i.castSucc) ≤ t 0) :
    calc_age_weights_from_sfh_table t s a t_obs sfr_min i = 0 := by
  have h1 : birthTime t_obs (get_lg_age_bin_edges a i.castSucc) ≤ t 0 := max_le (by linarith) hold
  have h2 : birthTime t_obs (get_lg_age_bin_edges a i.succ) ≤ t 0 := (birthTime_anti _ hi).trans h1
  rw [age_weights_eq, massFormed_before ht ht0 (birthTime_pos _ _) h1, massFormed_before ht ht0 (birthTime_pos _ _) h2,
    sub_self, zero_div]

/-! ## C19 -/

/-- C19: two histories that agree at all table times up to the first one at or after `t_obs` (index `k`) give identical
age weights. -/
theorem C19_age_weights_causal (t s s' : Fin (n + 2) → ℝ) (a : Fin (m + 3) → ℝ) (t_obs sfr_min : ℝ)
    (ht : StrictMono t) (ht0 : 0.001 < t 0) (k : Fin (n + 2)) (hk : t_obs ≤ t k) (hagree : ∀ j ≤ k, s j = s' j) :
    calc_age_weights_from_sfh_table t s a t_obs sfr_min = calc_age_weights_from_sfh_table t s' a t_obs sfr_min := by
  have hmass : ∀ x, massFormed t s sfr_min (birthTime t_obs x) = massFormed t s' sfr_min (birthTime t_obs x) := by
    intro x
    have hlt : birthTime t_obs x < t k := by
      refine max_lt (ht0.trans_le (ht.monotone (Fin.zero_le k))) ?_
      have := exp10_pos x
      unfold exp10 at this
      linarith
    rw [massFormed_eq, massFormed_eq]
    congr 1
    refine interp_congr_left (lgt_strictMono ht ht0) k (log10_lt (birthTime_pos _ _) hlt) ?_
    intro j hj
    rw [calc_logsm_eq, calc_logsm_eq]
    exact congrArg log10 (C12_mstar_causal t t (fun j => max sfr_min (s j)) (fun j => max sfr_min (s' j)) j
      (fun _ _ => rfl) (fun i hi => by rw [hagree i (hi.trans hj)]))
  funext i
  simp only [age_weights_eq, hmass]

/-- C19: in particular star formation after `t_obs` is irrelevant: changing the history strictly after table index `k`. -/
theorem C19_future_update_irrelevant (t s : Fin (n + 2) → ℝ) (a : Fin (m + 3) → ℝ) (t_obs sfr_min : ℝ)
    (ht : StrictMono t) (ht0 : 0.001 < t 0) (k j : Fin (n + 2)) (hk : t_obs ≤ t k) (hj : k < j) (v : ℝ) :
    calc_age_weights_from_sfh_table t (Function.update s j v) a t_obs sfr_min
      = calc_age_weights_from_sfh_table t s a t_obs sfr_min :=
  C19_age_weights_causal t _ s a t_obs sfr_min ht ht0 k hk
    (fun i hi => Function.update_of_ne (lt_of_le_of_lt hi hj).ne _ _)

end Dsps.Props

namespace Dsps.Props
open Dsps.Utils Dsps.Lemmas Dsps.StellarAgeWeights Dsps.Constants Jnp Spec Set

/-! ## Witnesses -/

theorem logb_ten_pow (k : ℕ) : Real.logb 10 ((10:ℝ) ^ k) = k := by
  rw [← Real.rpow_natCast]; exact Real.logb_rpow (by norm_num) (by norm_num)

/-- table times 1, 10, 100 Gyr: log10 = 0, 1, 2 -/
theorem resolved_pow10 (n : ℕ) : @Resolved n Dtype.float64 (fun i => Real.logb 10 ((10:ℝ) ^ (i : ℕ))) := by
  intro i
  simp only [logb_ten_pow]
  show (2:ℝ)⁻¹ ^ 104 < _
  simp only [Fin.val_succ, Fin.val_castSucc]
  push_cast
  have : (2:ℝ)⁻¹ ^ 104 < 1 := by norm_num
  linarith

theorem strictMono_pow10 (n : ℕ) : StrictMono (fun i : Fin n => (10:ℝ) ^ (i : ℕ)) := by
  intro i j h
  exact pow_lt_pow_right₀ (by norm_num) h

/-- edges of the age grid -2, -1, 0: -2.5, -1.5, -0.5, 0.5 -/
theorem age_edges_example : get_lg_age_bin_edges (fun i : Fin 3 => (-2:ℝ) + i * 1) 0 = -2.5 ∧
    get_lg_age_bin_edges (fun i : Fin 3 => (-2:ℝ) + i * 1) (Fin.last 3) = 0.5 := by
  constructor
  · rw [lg_age_edges_eq, edges_zero]; norm_num
  · rw [lg_age_edges_eq, edges_last, C06_uniform (n := 0)]; norm_num

/-- Non-vacuity of C17: table 1, 10, 100 Gyr, ages 0.01, 0.1, 1 Gyr, observed at 13 Gyr. -/
example : ∃ (t : Fin 3 → ℝ) (a : Fin 3 → ℝ) (t_obs : ℝ), StrictMono t ∧ 0.001 < t 0 ∧
    (@Resolved 1 Dtype.float64 fun i => Real.logb 10 (t i)) ∧ MildlySpaced a ∧
    t 0 < t_obs - (10:ℝ) ^ (get_lg_age_bin_edges a 0) ∧
    t_obs - (10:ℝ) ^ (get_lg_age_bin_edges a (Fin.last 3)) < t (Fin.last 2) := by
  refine ⟨fun i => (10:ℝ) ^ (i : ℕ), fun i => (-2:ℝ) + i * 1, 13, strictMono_pow10 3, by norm_num, resolved_pow10 1,
    mildlySpaced_uniform (-2) 1 one_pos, ?_, ?_⟩
  · rw [age_edges_example.1]
    have : (10:ℝ) ^ (-2.5:ℝ) < (10:ℝ) ^ (0:ℝ) := Real.rpow_lt_rpow_of_exponent_lt (by norm_num) (by norm_num)
    norm_num at this ⊢
    linarith
  · have := Real.rpow_pos_of_pos (show (0:ℝ) < 10 by norm_num) (get_lg_age_bin_edges (fun i : Fin 3 => (-2:ℝ) + i * 1) (Fin.last 3))
    norm_num at this ⊢
    linarith

/-- C17 is false on irregular age grids: with log-ages 0, 1, 2, 11 (increasing!) the edge between the first two bins is at
0.5 and the next at -0.5, so for `t_obs` = 20 Gyr and a table at 1, 10, 100 Gyr the second weight is negative. -/
theorem C17_negative_weight : ∃ (t s : Fin 3 → ℝ) (a : Fin 4 → ℝ) (t_obs : ℝ), StrictMono t ∧ 0.001 < t 0 ∧ (∀ i, 0 < s i) ∧
    StrictMono a ∧ @calc_age_weights_from_sfh_table 1 1 Dtype.float64 t s a t_obs SFR_MIN 1 < 0 := by
  letI := Dtype.float64
  let t : Fin 3 → ℝ := fun i => (10:ℝ) ^ (i : ℕ)
  let s : Fin 3 → ℝ := fun _ => 1
  let a : Fin 4 → ℝ := ![0, 1, 2, 11]
  have ht : StrictMono t := strictMono_pow10 3
  have ht0 : (0.001:ℝ) < t 0 := by norm_num [t]
  have hr : Resolved fun i => Real.logb 10 (t i) := resolved_pow10 1
  have ha : StrictMono a := by rw [Fin.strictMono_iff_lt_succ]; intro i; fin_cases i <;> simp [a] <;> norm_num
  have hs : (0:ℝ) < SFR_MIN := by norm_num [SFR_MIN]
  refine ⟨t, s, a, 20, ht, ht0, fun _ => one_pos, ha, ?_⟩
  have e0 : get_lg_age_bin_edges a 0 = -1/2 := by rw [lg_age_edges_eq, edges_zero]; norm_num [a]
  have e1 : get_lg_age_bin_edges a (Fin.castSucc 1) = 1/2 := by
    rw [lg_age_edges_eq]
    have := edges_interior (n := 1) a (a 0 - (a 1 - a 0) / 2) (a (Fin.last 3) + jax_get_dt_array a (Fin.last 3) / 2) 0
    exact this.trans (by simp [a]; norm_num)
  have e2 : get_lg_age_bin_edges a (Fin.succ 1) = -1/2 := by
    rw [lg_age_edges_eq]
    have := edges_interior (n := 1) a (a 0 - (a 1 - a 0) / 2) (a (Fin.last 3) + jax_get_dt_array a (Fin.last 3) / 2) 1
    exact this.trans (by simp [a]; norm_num)
  have p1 : (10:ℝ) ^ (1/2:ℝ) < (10:ℝ) ^ (1:ℝ) := Real.rpow_lt_rpow_of_exponent_lt (by norm_num) (by norm_num)
  have p2 : (10:ℝ) ^ (-1/2:ℝ) < (10:ℝ) ^ (0:ℝ) := Real.rpow_lt_rpow_of_exponent_lt (by norm_num) (by norm_num)
  have p3 : (10:ℝ) ^ (-1/2:ℝ) < (10:ℝ) ^ (1/2:ℝ) := Real.rpow_lt_rpow_of_exponent_lt (by norm_num) (by norm_num)
  have p4 := Real.rpow_pos_of_pos (show (0:ℝ) < 10 by norm_num) (1/2:ℝ)
  have p5 := Real.rpow_pos_of_pos (show (0:ℝ) < 10 by norm_num) (-1/2:ℝ)
  rw [Real.rpow_one] at p1
  rw [Real.rpow_zero] at p2
  have tl : t (Fin.last 2) = 100 := by simp [t]; norm_num
  have t0 : t 0 = 1 := by simp [t]
  have htot := (C17_total_mass_pos_iff t s a 20 SFR_MIN hs ht ht0 hr ha).2.mpr ⟨by rw [e0, t0]; linarith, by
    have := Real.rpow_pos_of_pos (show (0:ℝ) < 10 by norm_num) (get_lg_age_bin_edges a (Fin.last (1 + 3)))
    rw [tl]; linarith⟩
  show calc_age_weights_from_sfh_table t s a 20 SFR_MIN 1 < 0
  rw [age_weights_eq, e1, e2]
  apply div_neg_of_neg_of_pos _ htot
  rw [sub_neg]
  have b1 : birthTime 20 (1/2) = 20 - (10:ℝ) ^ (1/2:ℝ) := max_eq_right (by linarith)
  have b2 : birthTime 20 (-1/2) = 20 - (10:ℝ) ^ (-1/2:ℝ) := max_eq_right (by linarith)
  rw [b1, b2]
  exact massFormed_strictMonoOn ht ht0 hs hr (by rw [t0]; linarith) (by linarith) (by rw [tl]; linarith)

/-- Non-vacuity of C18 and C19: an old bin outside the table, and an observation time inside the table. -/
example : ∃ (t : Fin 3 → ℝ) (a : Fin 3 → ℝ), StrictMono t ∧ 0.001 < t 0 ∧
    get_lg_age_bin_edges a (Fin.last 2).castSucc ≤ get_lg_age_bin_edges a (Fin.last 2).succ ∧
    (1:ℝ) - (10:ℝ) ^ (get_lg_age_bin_edges a (Fin.last 2).castSucc) ≤ t 0 ∧ (5:ℝ) ≤ t 1 := by
  refine ⟨fun i => (10:ℝ) ^ (i : ℕ), fun i => (-2:ℝ) + i * 1, strictMono_pow10 3, by norm_num, ?_, ?_, by norm_num⟩
  · exact (C17_age_edges_mono _ (mildlySpaced_uniform (n := 0) (-2) 1 one_pos)).monotone (Fin.castSucc_lt_succ).le
  · have := Real.rpow_pos_of_pos (show (0:ℝ) < 10 by norm_num) (get_lg_age_bin_edges (fun i : Fin 3 => (-2:ℝ) + i * 1) (Fin.last 2).castSucc)
    simp at this ⊢
    linarith

/-! ## The theorems applied to one concrete galaxy: table 1, 10, 100 Gyr, star formation 3, 1, 2 Msun/yr, SSP ages 0.01,
0.1, 1 Gyr, observed at 13 Gyr -/

/-- cosmic time table -/
noncomputable def caseT : Fin 3 → ℝ := fun i => (10:ℝ) ^ (i : ℕ)
/-- star formation history -/
noncomputable def caseS : Fin 3 → ℝ := ![3, 1, 2]
/-- log10 of the SSP ages in Gyr -/
noncomputable def caseA : Fin 3 → ℝ := fun i => (-2:ℝ) + i * 1

theorem caseT_mono : StrictMono caseT := strictMono_pow10 3
theorem caseT_zero : (0.001:ℝ) < caseT 0 := by norm_num [caseT]
theorem caseT_resolved : @Resolved 1 Dtype.float64 (fun i => Real.logb 10 (caseT i)) := resolved_pow10 1
theorem caseS_pos (i : Fin 3) : 0 < caseS i := by fin_cases i <;> norm_num [caseS]
theorem caseA_mild : MildlySpaced (n := 0) caseA := mildlySpaced_uniform (n := 0) (-2) 1 one_pos
theorem caseA_mono : StrictMono caseA := caseA_mild.1
theorem caseA_edges : Monotone (get_lg_age_bin_edges (m := 0) caseA) := (C17_age_edges_mono (m := 0) caseA caseA_mild).monotone
theorem case_young : caseT 0 < 13 - (10:ℝ) ^ (get_lg_age_bin_edges (m := 0) caseA 0) := by
  have h : get_lg_age_bin_edges (m := 0) caseA 0 = -2.5 := age_edges_example.1
  have : (10:ℝ) ^ (-2.5:ℝ) < (10:ℝ) ^ (0:ℝ) := Real.rpow_lt_rpow_of_exponent_lt (by norm_num) (by norm_num)
  rw [h]
  norm_num [caseT] at this ⊢
  linarith
theorem case_old : 13 - (10:ℝ) ^ (get_lg_age_bin_edges (m := 0) caseA (Fin.last 3)) < caseT (Fin.last 2) := by
  have := Real.rpow_pos_of_pos (show (0:ℝ) < 10 by norm_num) (get_lg_age_bin_edges (m := 0) caseA (Fin.last 3))
  norm_num [caseT] at this ⊢
  linarith

section
attribute [local instance] Dtype.float64

/-- C20 applied -/
example := C20_run_telescopes (n := 1) (m := 0) caseT caseS caseA 13 1e-14 1 3 (by decide)
example := C20_mass_history (n := 1) caseT caseS 1e-14 caseT_mono caseT_zero (by norm_num) caseT_resolved
/-- C17 applied -/
example := C17_total_mass_pos_iff (n := 1) (m := 0) caseT caseS caseA 13 1e-14 (by norm_num) caseT_mono caseT_zero
  caseT_resolved caseA_mono
example : IsProbVector (calc_age_weights_from_sfh_table (n := 1) (m := 0) caseT caseS caseA 13 1e-14) :=
  C17_age_weights_prob_partial caseT caseS caseA 13 1e-14 (by norm_num) caseT_mono caseT_zero caseT_resolved caseA_mono
    caseA_edges case_young case_old
example : ∑ i, calc_age_weights_from_sfh_table (n := 1) (m := 0) caseT caseS caseA 13 1e-14 i = 1 :=
  C17_age_weights_sum caseT caseS caseA 13 1e-14 (by norm_num) caseT_mono caseT_zero caseT_resolved caseA_mono
    case_young case_old
example : IsProbVector (calc_age_weights_from_sfh_table (n := 1) (m := 0) caseT caseS caseA 13) :=
  C17_age_weights_prob_mild_partial caseT caseS caseA 13 caseT_mono caseT_zero caseT_resolved caseA_mild case_young
    case_old
/-- C18 applied: observed at 1.1 Gyr, the oldest bin would hold stars born before the table -/
example : calc_age_weights_from_sfh_table (n := 1) (m := 0) caseT caseS caseA 1.1 1e-14 2 = 0 := by
  refine C18_no_stars_before_table caseT caseS caseA 1.1 1e-14 caseT_mono caseT_zero 2
    (caseA_edges (Fin.castSucc_lt_succ).le) ?_
  have h : get_lg_age_bin_edges (m := 0) caseA (2 : Fin 3).castSucc = -1 / 2 := by
    rw [lg_age_edges_eq, show (2 : Fin 3).castSucc = (1 : Fin 2).succ.castSucc from rfl, edges_succ,
      show jax_get_dt_array caseA (1 : Fin 2).succ = 1 from C06_uniform (n := 0) (-2) 1 _]
    norm_num [caseA]
  have : (10:ℝ) ^ (-1:ℝ) ≤ (10:ℝ) ^ (-1 / 2:ℝ) := Real.rpow_le_rpow_of_exponent_le (by norm_num) (by norm_num)
  rw [h]
  norm_num [caseT, Real.rpow_neg_one] at this ⊢
  linarith
/-- C19 applied: observed at 5 Gyr, the star formation rate at 100 Gyr is irrelevant -/
example : calc_age_weights_from_sfh_table (n := 1) (m := 0) caseT ![3, 1, 2] caseA 5 1e-14 =
    calc_age_weights_from_sfh_table (n := 1) (m := 0) caseT ![3, 1, 70] caseA 5 1e-14 :=
  C19_age_weights_causal caseT ![3, 1, 2] ![3, 1, 70] caseA 5 1e-14 caseT_mono caseT_zero 1 (by norm_num [caseT])
    (by intro j hj; fin_cases j <;> first | rfl | (exact absurd hj (by decide)))
example := C19_future_update_irrelevant (n := 1) (m := 0) caseT caseS caseA 5 1e-14 caseT_mono caseT_zero 1 2
  (by norm_num [caseT]) (by decide) 70
end

end Dsps.Props
