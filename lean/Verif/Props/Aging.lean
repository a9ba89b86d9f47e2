import Verif.Props.MetShift

/-! C145: how age weights and spectra evolve after star formation has ended (`/repo/dsps/sed/stellar_age_weights.py`, `/repo/dsps/sed/stellar_sed.py`). -/
namespace Dsps.Props
open Dsps.Utils Dsps.Lemmas Dsps.StellarAgeWeights Dsps.MetallicityWeights Dsps.SspWeights Dsps.Constants Jnp Spec Set
open scoped BigOperators

section
variable {n m k w : ℕ} [Dtype] {t s : Fin (n + 2) → ℝ} {a : Fin (m + 3) → ℝ} {z : Fin (k + 3) → ℝ} {flux : Fin (k + 3) → Fin (m + 3) → Fin w → ℝ}
  {t_obs t_obs' gal_lgmet scatter sfr_min : ℝ}

/-- share of the binned mass up to a bin -/
lemma upTo_age (t s : Fin (n + 2) → ℝ) (a : Fin (m + 3) → ℝ) (t_obs sfr_min : ℝ) (j : Fin (m + 3)) :
    upTo (calc_age_weights_from_sfh_table t s a t_obs sfr_min) j =
      (massFormed t s sfr_min (birthTime t_obs (get_lg_age_bin_edges a 0)) - massFormed t s sfr_min (birthTime t_obs (get_lg_age_bin_edges a j.succ))) /
      (massFormed t s sfr_min (birthTime t_obs (get_lg_age_bin_edges a 0)) - massFormed t s sfr_min (birthTime t_obs (get_lg_age_bin_edges a (Fin.last (m + 3))))) := by
  set D := massFormed t s sfr_min (birthTime t_obs (get_lg_age_bin_edges a 0)) - massFormed t s sfr_min (birthTime t_obs (get_lg_age_bin_edges a (Fin.last (m + 3))))
  have h : calc_age_weights_from_sfh_table t s a t_obs sfr_min = fun i => massFormed t s sfr_min (birthTime t_obs (get_lg_age_bin_edges a i.castSucc)) / D -
      massFormed t s sfr_min (birthTime t_obs (get_lg_age_bin_edges a i.succ)) / D := funext fun i => by
    rw [C20_weight_is_mass_share, sub_div]
  rw [h, upTo_telescope (fun i => massFormed t s sfr_min (birthTime t_obs (get_lg_age_bin_edges a i)) / D), sub_div]

/-- the galaxy is observed after the end of its star formation table, when all its stars have ages covered by the age grid: older than the youngest edge `e 0`, younger than the oldest -/
structure Passive (t : Fin (n + 2) → ℝ) (a : Fin (m + 3) → ℝ) (t_obs : ℝ) : Prop where
  ended : t (Fin.last (n + 1)) ≤ t_obs - (10:ℝ) ^ (get_lg_age_bin_edges a 0)
  covered : t_obs - (10:ℝ) ^ (get_lg_age_bin_edges a (Fin.last (m + 3))) ≤ t 0

lemma Passive.first (P : Passive t a t_obs) (ht : StrictMono t) (ht0 : 0.001 < t 0) (hr : Resolved fun i => Real.logb 10 (t i)) :
    massFormed t s sfr_min (birthTime t_obs (get_lg_age_bin_edges a 0)) = massFormed t s sfr_min (t (Fin.last (n + 1))) :=
  massFormed_after ht ht0 hr (P.ended.trans (le_max_right _ _))

omit [Dtype] in
lemma Passive.cover_birth (P : Passive t a t_obs) (ht0 : 0.001 < t 0) : birthTime t_obs (get_lg_age_bin_edges a (Fin.last (m + 3))) ≤ t 0 := max_le ht0.le P.covered

lemma Passive.final (P : Passive t a t_obs) (ht : StrictMono t) (ht0 : 0.001 < t 0) :
    massFormed t s sfr_min (birthTime t_obs (get_lg_age_bin_edges a (Fin.last (m + 3)))) = massFormed t s sfr_min (t 0) :=
  massFormed_before ht ht0 (birthTime_pos _ _) (P.cover_birth ht0)

lemma Passive.mass (P : Passive t a t_obs) (ht : StrictMono t) (ht0 : 0.001 < t 0) (hr : Resolved fun i => Real.logb 10 (t i)) :
    massFormed t s sfr_min t_obs = massFormed t s sfr_min (t (Fin.last (n + 1))) :=
  massFormed_after ht ht0 hr (P.ended.trans (by linarith [Real.rpow_pos_of_pos (show (0:ℝ) < 10 by norm_num) (get_lg_age_bin_edges a 0)]))

omit [Dtype] in
lemma birthTime_later {x y : ℝ} (h : x ≤ y) (e : ℝ) : birthTime x e ≤ birthTime y e := max_le_max le_rfl (by linarith)

/-- C145: **passive evolution of the age weights**: once star formation has ended and while all ages are covered by the grid, the share of the stars in the youngest age bins, however many are counted, only ever
decreases with the time of observation; the share in each initial run of bins is the share of the mass formed after its oldest edge.  So every average over the age weights of a quantity that grows with age grows. -/
theorem C145_passive (ht : StrictMono t) (ht0 : 0.001 < t 0) (hr : Resolved fun i => Real.logb 10 (t i)) (hs : 0 < sfr_min)
    (P : Passive t a t_obs) (P' : Passive t a t_obs') (hle : t_obs ≤ t_obs') :
    let younger := fun t_obs j => ∑ i, if i ≤ j then calc_age_weights_from_sfh_table t s a t_obs sfr_min i else 0
    let M := massFormed t s sfr_min
    (∀ j : Fin (m + 3), younger t_obs j = (M (t (Fin.last (n + 1))) - M (birthTime t_obs (get_lg_age_bin_edges a j.succ))) / (M (t (Fin.last (n + 1))) - M (t 0))) ∧
    (∀ j, younger t_obs' j ≤ younger t_obs j) ∧
    ∀ f : Fin (m + 3) → ℝ, Monotone f →
      ∑ i, f i * calc_age_weights_from_sfh_table t s a t_obs sfr_min i ≤ ∑ i, f i * calc_age_weights_from_sfh_table t s a t_obs' sfr_min i := by
  intro younger M
  have hpos : 0 < M (t (Fin.last (n + 1))) - M (t 0) := sub_pos.mpr (massFormed_strictMonoOn ht ht0 hs hr le_rfl (ht (Fin.last_pos)) le_rfl)
  have form : ∀ {T}, Passive t a T → ∀ j : Fin (m + 3), upTo (calc_age_weights_from_sfh_table t s a T sfr_min) j =
      (M (t (Fin.last (n + 1))) - M (birthTime T (get_lg_age_bin_edges a j.succ))) / (M (t (Fin.last (n + 1))) - M (t 0)) := fun {T} Q j => by
    rw [upTo_age, Q.first ht ht0 hr, Q.final ht ht0]
  have hd : ∀ j, upTo (calc_age_weights_from_sfh_table t s a t_obs' sfr_min) j ≤ upTo (calc_age_weights_from_sfh_table t s a t_obs sfr_min) j := fun j => by
    rw [form P, form P']
    refine div_le_div_of_nonneg_right (sub_le_sub_left ?_ _) hpos.le
    exact massFormed_mono ht ht0 hs (birthTime_pos _ _) (birthTime_later hle _)
  refine ⟨form P, hd, fun f hf => mean_of_dominance ?_ hd hf⟩
  have one : ∀ {T}, Passive t a T → ∑ i, calc_age_weights_from_sfh_table t s a T sfr_min i = 1 := fun {T} Q => by
    rw [← upTo_last, upTo_age, Fin.succ_last, Q.first ht ht0 hr, Q.final ht ht0, div_self hpos.ne']
  rw [one P, one P']

/-- C145: **passively evolving galaxies fade**: if at one wavelength, at every metallicity, the SSP flux decreases with age, then so does the galaxy's flux with the time of observation; the stellar mass formed does not
change. -/
theorem C145_fading (H : SedInputs t a z t_obs scatter) (H' : SedInputs t a z t_obs' scatter) (P : Passive t a t_obs) (P' : Passive t a t_obs') (hle : t_obs ≤ t_obs') (l : Fin w) :
    let sed := fun T => (calc_rest_sed_sfh_table_lognormal_mdf t s gal_lgmet scatter z a flux T).rest_sed l
    massFormed t s 1e-14 t_obs' = massFormed t s 1e-14 t_obs ∧
    ((∀ i, Antitone fun j => flux i j l) → sed t_obs' ≤ sed t_obs) ∧ ((∀ i, Monotone fun j => flux i j l) → sed t_obs ≤ sed t_obs') := by
  intro sed
  have hm : massFormed t s 1e-14 t_obs' = massFormed t s 1e-14 t_obs := by rw [P.mass H.times H.start H.resolved, P'.mass H.times H.start H.resolved]
  have hd := (C145_passive (s := s) H.times H.start H.resolved (sfr_min := SFR_MIN) (by norm_num [SFR_MIN]) P P' hle).2.2
  have hmet := C21_lgmet_weights_prob_mild_partial gal_lgmet scatter H.width z H.mets H.low H.high
  refine ⟨hm, fun h => ?_, fun h => ?_⟩ <;> simp only [sed] <;> rw [sed_weights H s l, sed_weights H' s l, hm] <;>
    refine mul_le_mul_of_nonneg_left ?_ (massFormed_pos _).le
  · have := hd (fun j => - unitLight gal_lgmet scatter z flux l j) fun p q hpq => neg_le_neg (Finset.sum_le_sum fun i _ => mul_le_mul_of_nonneg_left (h i hpq) (hmet.1 i))
    simp only [neg_mul, Finset.sum_neg_distrib, neg_le_neg_iff] at this
    simp only [mul_comm (calc_age_weights_from_sfh_table _ _ _ _ _ _)]
    exact this
  · have := hd (fun j => unitLight gal_lgmet scatter z flux l j) fun p q hpq => Finset.sum_le_sum fun i _ => mul_le_mul_of_nonneg_left (h i hpq) (hmet.1 i)
    simp only [mul_comm (calc_age_weights_from_sfh_table _ _ _ _ _ _)]
    exact this

/-! ## quenched galaxies -/

omit [Dtype] in
/-- mass formed from a table time on -/
lemma mass_since {t s : Fin (n + 1) → ℝ} {r : ℝ} (ht : StrictMono t) (q : Fin (n + 1)) (hq : ∀ i, q ≤ i → s i ≤ r) (i : Fin (n + 1)) (hi : q ≤ i) :
    cumulative_mstar_formed t s i ≤ cumulative_mstar_formed t s q + 1e9 * r * (t i - t q) := by
  induction i using Fin.induction with
  | zero => rw [Fin.le_zero_iff.mp hi]; simp
  | succ i ih =>
    rcases hi.eq_or_lt with h | h
    · rw [h]; simp
    have hi' : q ≤ i.castSucc := Fin.le_castSucc_iff.mpr h
    rw [(C12_mstar_formula t s).2 i]
    have := ih hi'
    have g : t i.castSucc < t i.succ := ht Fin.castSucc_lt_succ
    have : trapezoidArea (t i.castSucc) (t i.succ) (s i.castSucc) (s i.succ) ≤ r * (t i.succ - t i.castSucc) := by
      unfold trapezoidArea
      nlinarith [hq _ hi', hq _ h.le]
    linarith

/-- C145: **a galaxy that stopped forming stars has no young stars**: if from some time of the table on the star formation rate is at most `r` (and `r` at least the floor `1e-14`), the share of all age bins born after it is at most `1e9 r`
times the length of the rest of the table, divided by the mass in all bins; so at most `1e-5` Msun per Gyr for vanishing star formation. -/
theorem C145_quenched (ht : StrictMono t) (ht0 : 0.001 < t 0) (hr : Resolved fun i => Real.logb 10 (t i)) (hs : 0 < sfr_min) {r : ℝ} (hrs : sfr_min ≤ r) {q : Fin (n + 2)} (hq : ∀ i, q ≤ i → s i ≤ r)
    (ha : StrictMono a) (hyoung : t 0 < t_obs - (10:ℝ) ^ (get_lg_age_bin_edges a 0)) (hold : t_obs - (10:ℝ) ^ (get_lg_age_bin_edges a (Fin.last (m + 3))) < t (Fin.last (n + 1)))
    {j : Fin (m + 3)} (hj : t q ≤ t_obs - (10:ℝ) ^ (get_lg_age_bin_edges a j.succ)) :
    (∑ i, if i ≤ j then calc_age_weights_from_sfh_table t s a t_obs sfr_min i else 0) ≤
      1e9 * r * (t (Fin.last (n + 1)) - t q) / (massFormed t s sfr_min (birthTime t_obs (get_lg_age_bin_edges a 0)) - massFormed t s sfr_min (birthTime t_obs (get_lg_age_bin_edges a (Fin.last (m + 3))))) := by
  have hpos := (C17_total_mass_pos_iff t s a t_obs sfr_min hs ht ht0 hr ha).2.mpr ⟨hyoung, hold⟩
  have e := upTo_age t s a t_obs sfr_min j
  unfold upTo at e
  rw [e]
  refine div_le_div_of_nonneg_right ?_ hpos.le
  have h1 : massFormed t s sfr_min (birthTime t_obs (get_lg_age_bin_edges a 0)) ≤ massFormed t s sfr_min (t (Fin.last (n + 1))) := by
    rcases le_total (birthTime t_obs (get_lg_age_bin_edges a 0)) (t (Fin.last (n + 1))) with h | h
    · exact massFormed_mono ht ht0 hs (birthTime_pos _ _) h
    · exact (massFormed_after ht ht0 hr h).le
  have h2 : massFormed t s sfr_min (t q) ≤ massFormed t s sfr_min (birthTime t_obs (get_lg_age_bin_edges a j.succ)) :=
    massFormed_mono ht ht0 hs (t_pos ht ht0 q) (hj.trans (le_max_right _ _))
  have h3 := mass_since (s := fun j => max sfr_min (s j)) (r := r) ht q (fun i hi => max_le hrs (hq i hi)) (Fin.last (n + 1)) (Fin.le_last _)
  rw [← massFormed_table ht ht0 hs hr, ← massFormed_table ht ht0 hs hr] at h3
  linarith

/-- C145: and so is its light: if the SSPs in the bins born after the end of star formation have flux at most `B` and those in the older bins at most `B'`, the galaxy's flux per formed mass is at most `B'` plus
the share of the former times `B - B'`. -/
theorem C145_quenched_light (H : SedInputs t a z t_obs scatter) {r : ℝ} (hrs : 1e-14 ≤ r) {q : Fin (n + 2)} (hq : ∀ i, q ≤ i → s i ≤ r)
    {j : Fin (m + 3)} (hj : t q ≤ t_obs - (10:ℝ) ^ (get_lg_age_bin_edges a j.succ)) {l : Fin w} {B B' : ℝ} (hB : ∀ i p, flux i p l ≤ B) (hB' : ∀ i p, j < p → flux i p l ≤ B') (hBB : B' ≤ B) :
    (calc_rest_sed_sfh_table_lognormal_mdf t s gal_lgmet scatter z a flux t_obs).rest_sed l ≤ massFormed t s 1e-14 t_obs * (B' + (B - B') *
      (1e9 * r * (t (Fin.last (n + 1)) - t q) / (massFormed t s 1e-14 t_obs - unbinned t s a t_obs))) := by
  have hmet := C21_lgmet_weights_prob_mild_partial gal_lgmet scatter H.width z H.mets H.low H.high
  have hage := C17_age_weights_prob_mild_partial t s a t_obs H.times H.start H.resolved H.ages H.young H.old
  rw [sed_weights H s l]
  refine mul_le_mul_of_nonneg_left ?_ (massFormed_pos _).le
  have hu : ∀ p, unitLight gal_lgmet scatter z flux l p ≤ if p ≤ j then B else B' := fun p => by
    unfold unitLight
    calc _ ≤ ∑ i, calc_lgmet_weights_from_lognormal_mdf gal_lgmet scatter z i * (if p ≤ j then B else B') := Finset.sum_le_sum fun i _ => by
          refine mul_le_mul_of_nonneg_left ?_ (hmet.1 i)
          split_ifs with h
          exacts [hB i p, hB' i p (not_le.mp h)]
      _ = _ := by rw [← Finset.sum_mul, hmet.2, one_mul]
  have hQ := C145_quenched H.times H.start H.resolved (sfr_min := SFR_MIN) (by norm_num [SFR_MIN]) (by unfold SFR_MIN; exact hrs) hq H.ages.1 H.young H.old hj
  have eu : massFormed t s SFR_MIN (birthTime t_obs (get_lg_age_bin_edges a 0)) - massFormed t s SFR_MIN (birthTime t_obs (get_lg_age_bin_edges a (Fin.last (m + 3)))) =
      massFormed t s 1e-14 t_obs - unbinned t s a t_obs := by unfold unbinned SFR_MIN; ring
  rw [eu] at hQ
  calc _ ≤ ∑ p, calc_age_weights_from_sfh_table t s a t_obs SFR_MIN p * (if p ≤ j then B else B') := Finset.sum_le_sum fun p _ => mul_le_mul_of_nonneg_left (hu p) (hage.1 p)
    _ = ∑ p, (calc_age_weights_from_sfh_table t s a t_obs SFR_MIN p * B' + (B - B') * if p ≤ j then calc_age_weights_from_sfh_table t s a t_obs SFR_MIN p else 0) :=
        Finset.sum_congr rfl fun p _ => by split_ifs <;> ring
    _ = B' + (B - B') * ∑ p, if p ≤ j then calc_age_weights_from_sfh_table t s a t_obs SFR_MIN p else 0 := by
        rw [Finset.sum_add_distrib, ← Finset.sum_mul, ← Finset.mul_sum, hage.2, one_mul]
    _ ≤ _ := by gcongr

/-! ## cases: the galaxy of `Props/AgeWeights.lean` with SSP ages of 1, 10 and 100 Gyr; and one that formed stars until 1 Gyr -/

end

section

theorem case_age_grid : get_lg_age_bin_edges (m := 0) (fun i : Fin 3 => (0:ℝ) + i * 1) 0 = -0.5 ∧ get_lg_age_bin_edges (m := 0) (fun i : Fin 3 => (0:ℝ) + i * 1) (Fin.last 3) = 2.5 := by
  constructor
  · rw [lg_age_edges_eq, edges_zero]; norm_num
  · rw [lg_age_edges_eq, edges_last, C06_uniform (n := 0)]; norm_num [Fin.last]

theorem case_passive {T : ℝ} (h1 : 101 ≤ T) (h2 : T ≤ 101 + 200) : Passive (n := 1) (m := 0) caseT (fun i => (0:ℝ) + i * 1) T := by
  constructor
  · rw [case_age_grid.1]
    have : (10:ℝ) ^ (-0.5:ℝ) ≤ 10 ^ (0:ℝ) := Real.rpow_le_rpow_of_exponent_le (by norm_num) (by norm_num)
    norm_num [caseT] at this ⊢
    linarith
  · have e : (10:ℝ) ^ (2.5:ℝ) = 100 * Real.sqrt 10 := by
      rw [show (2.5:ℝ) = 2 + 1 / 2 by norm_num, Real.rpow_add (by norm_num), Real.sqrt_eq_rpow]; norm_num
    have : (3.1:ℝ) ≤ Real.sqrt 10 := Real.le_sqrt_of_sq_le (by norm_num)
    rw [case_age_grid.2, e]
    norm_num [caseT]
    linarith

attribute [local instance] Dtype.float64

theorem case_passive_inputs {T : ℝ} (h1 : 101 ≤ T) (h2 : T ≤ 101 + 200) : SedInputs (n := 1) (m := 0) (k := 2) caseT (fun i => (0:ℝ) + i * 1) caseZ T 0.2 :=
  have P := case_passive h1 h2
  ⟨caseT_mono, caseT_zero, caseT_resolved, mildlySpaced_uniform (n := 0) 0 1 one_pos, (caseT_mono (Fin.last_pos)).trans_le P.ended, P.covered.trans_lt (caseT_mono (Fin.last_pos)),
    by norm_num, caseZ_mild, caseZ_lo, caseZ_hi⟩

example := C145_passive (s := caseS) caseT_mono caseT_zero caseT_resolved (by norm_num : (0:ℝ) < 1e-14) (case_passive le_rfl (by norm_num)) (case_passive (T := 200) (by norm_num) (by norm_num)) (by norm_num)
example := (C145_fading (s := caseS) (flux := caseF) (gal_lgmet := -3) (case_passive_inputs le_rfl (by norm_num)) (case_passive_inputs (T := 200) (by norm_num) (by norm_num))
  (case_passive le_rfl (by norm_num)) (case_passive (T := 200) (by norm_num) (by norm_num)) (by norm_num) 1).2.2 fun i p q h => by
  have : (p.val : ℝ) ≤ q.val := by exact_mod_cast h
  simp only [caseF]; gcongr

theorem case_quenched (i : Fin 3) (h : 1 ≤ i) : (![3, 0, 0] : Fin 3 → ℝ) i ≤ 1e-14 := by
  fin_cases i
  · exact absurd h (by decide)
  · norm_num
  · norm_num

theorem case_quenched_bin : caseT 1 ≤ (101:ℝ) - (10:ℝ) ^ (get_lg_age_bin_edges (m := 0) (fun i : Fin 3 => (0:ℝ) + i * 1) (Fin.succ 0)) := by
  have : get_lg_age_bin_edges (m := 0) (fun i : Fin 3 => (0:ℝ) + i * 1) (Fin.succ 0) ≤ 1 := by
    have := ((C05_edges_bracket_partial (n := 0) (fun i : Fin 3 => (0:ℝ) + i * 1) (mildlySpaced_uniform (n := 0) 0 1 one_pos) (-0.5) 2.5 (by norm_num) (by norm_num [Fin.last])).2 1).1
    have e := lg_age_edges_eq (m := 0) (fun i : Fin 3 => (0:ℝ) + i * 1)
    have h0 := case_age_grid.1
    have h3 := case_age_grid.2
    rw [e, edges_zero] at h0
    rw [e, edges_last] at h3
    rw [e, h0, h3]
    have e2 : ((fun i : Fin 3 => (0:ℝ) + i * 1) 1 : ℝ) = 1 := by norm_num
    exact (this.trans_eq e2).le
  have h := Real.rpow_le_rpow_of_exponent_le (show (1:ℝ) ≤ 10 by norm_num) this
  rw [Real.rpow_one] at h
  have e : caseT 1 = 10 := by norm_num [caseT]
  rw [e]
  linarith

example := C145_quenched (s := ![3, 0, 0]) caseT_mono caseT_zero caseT_resolved (sfr_min := 1e-14) (by norm_num) le_rfl (q := 1) case_quenched (mildlySpaced_uniform (n := 0) 0 1 one_pos).1
  (case_passive_inputs le_rfl (by norm_num)).young (case_passive_inputs le_rfl (by norm_num)).old (j := 0) case_quenched_bin
example := C145_quenched_light (s := ![3, 0, 0]) (gal_lgmet := -3) (flux := fun (_ : Fin 5) (j : Fin 3) (_ : Fin 1) => if j = 0 then 10 else 1) (case_passive_inputs le_rfl (by norm_num)) (le_refl (1e-14:ℝ)) (q := 1) case_quenched
  (j := 0) case_quenched_bin (l := 0) (B := 10) (B' := 1) (fun i p => by split_ifs <;> norm_num) (fun i p h => by rw [if_neg h.ne']) (by norm_num)

end

end Dsps.Props
