import Verif.Lemmas.XFSed
import Verif.Props.SspWeights
import Verif.Cases

/-! Which inputs give finite SEDs and weights, and which give nan (float model of `Verif/Model/XFSed.lean`). -/
namespace Dsps.Props
open XF Dsps.Lemmas Dsps.Constants Spec
open Dsps.StellarAgeWeights (get_lg_age_bin_edges)
open Jnp (Resolved interpCell_eq)

variable {n m k w : ℕ} [Jnp.Dtype]

/-- C80: for an increasing time table that starts after 0.001 Gyr and a positive SFR floor, whatever the star formation rates, age
grid and time of observation: the age weights are finite, and equal to those of the real-valued model, exactly when the mass formed
between the birth times of the youngest and the oldest bin edge is not zero; otherwise no age weight is finite. -/
theorem C80_age_weights_finite_iff (t s : Fin (n + 2) → ℝ) (a : Fin (m + 3) → ℝ) (t_obs sfr_min : ℝ) (ht : StrictMono t)
    (h0 : 0.001 < t 0) (hs : 0 < sfr_min) :
    let W := XFSed.calc_age_weights_from_sfh_table (fun j => fin (t j)) (fun j => fin (s j)) (fun j => fin (a j)) (fin t_obs)
      (fin sfr_min)
    let young := massFormed t s sfr_min (birthTime t_obs (get_lg_age_bin_edges a 0))
    let old := massFormed t s sfr_min (birthTime t_obs (get_lg_age_bin_edges a (Fin.last (m + 3))))
    (young ≠ old → ∀ i, Rep (W i) (StellarAgeWeights.calc_age_weights_from_sfh_table t s a t_obs sfr_min i)) ∧
    (young = old → ∀ i, ¬ IsFinite (W i)) := by
  intro W young old
  obtain ⟨d, D, hd, hD, hW⟩ := age_weights_float t s a t_obs sfr_min ht h0 hs
  rw [sum_deltaMass] at hD
  constructor
  · intro hne i
    rw [age_weights_eq]
    show Rep (XFSed.calc_age_weights_from_sfh_table _ _ _ _ _ i) _
    rw [hW]
    exact (hd i).div hD (sub_ne_zero.2 hne)
  · rintro heq i ⟨x, hx⟩
    have h00 : young - old = 0 := sub_eq_zero.2 heq
    have hx' : Rep (XFSed.calc_age_weights_from_sfh_table (fun j => fin (t j)) (fun j => fin (s j)) (fun j => fin (a j)) (fin t_obs)
      (fin sfr_min) i) x := hx
    have hD0 : Rep D 0 := by rw [← h00]; exact hD
    rw [hW, (hd i).div_zero hD0] at hx'
    split_ifs at hx' with h
    · exact not_rep_nan _ hx'
    · exact not_rep_inf _ _ hx'

/-- C80: in terms of the inputs, for an increasing age grid: finite as soon as the youngest bin edge was born after the table starts
and the oldest before it ends. -/
theorem C80_age_weights_finite (t s : Fin (n + 2) → ℝ) (a : Fin (m + 3) → ℝ) (t_obs sfr_min : ℝ) (ht : StrictMono t)
    (h0 : 0.001 < t 0) (hs : 0 < sfr_min) (hr : Resolved fun i => Real.logb 10 (t i)) (ha : StrictMono a)
    (hyoung : t 0 < t_obs - (10:ℝ) ^ (get_lg_age_bin_edges a 0))
    (hold : t_obs - (10:ℝ) ^ (get_lg_age_bin_edges a (Fin.last (m + 3))) < t (Fin.last (n + 1))) (i : Fin (m + 3)) :
    Rep (XFSed.calc_age_weights_from_sfh_table (fun j => fin (t j)) (fun j => fin (s j)) (fun j => fin (a j)) (fin t_obs)
      (fin sfr_min) i) (StellarAgeWeights.calc_age_weights_from_sfh_table t s a t_obs sfr_min i) := by
  have := ((C17_total_mass_pos_iff t s a t_obs sfr_min hs ht h0 hr ha).2.2 ⟨hyoung, hold⟩)
  exact (C80_age_weights_finite_iff t s a t_obs sfr_min ht h0 hs).1 (by intro h; rw [h, sub_self] at this; exact lt_irrefl _ this) i

/-- the cumulative mass at the first table time is not positive if the table starts at or before 0.001 Gyr -/
theorem mstar_first_nonpos (t s : Fin (n + 2) → ℝ) (h0 : t 0 ≤ 0.001) (hs : ∀ i, 0 < s i) :
    Utils.cumulative_mstar_formed t s 0 ≤ 0 := by
  rw [(C12_mstar_formula t s).1, trapezoidArea]
  have : (t 0 - 0.001) * ((1e-14 + s 0) / 2) ≤ 0 :=
    mul_nonpos_of_nonpos_of_nonneg (by linarith) (by have := hs 0; norm_num; linarith)
  nlinarith

omit [Jnp.Dtype] in
/-- the logarithm of a non-positive number is `-inf` or nan -/
theorem log10_nonpos {a : XF} {x : ℝ} (h : Rep a x) (hx : x ≤ 0) : XF.log10 a = inf true ∨ XF.log10 a = nan := by
  rcases hx.lt_or_eq with h' | h'
  · exact Or.inr (h.log10_neg h')
  · subst h'; exact Or.inl h.log10_zero

omit [Jnp.Dtype] in
/-- interpolating from a `-inf` or nan node never gives a number -/
theorem interp_from_neg_inf {a b c q : XF} {x : ℝ} (ha : a = inf true ∨ a = nan) (hq : Rep q x) (hx : 0 ≤ x)
    (hb : c = b - a) (hbn : IsFinite b ∨ b = nan ∨ b = inf true) : a + q * c = nan := by
  subst hb
  rcases ha with rfl | rfl
  · rcases hbn with ⟨y, hy⟩ | rfl | rfl
    · rw [hy.sub_inf]
      rcases hx.eq_or_lt with h | h
      · subst h; rw [hq.zero_mul_inf, add_nan]
      · rw [hq.mul_inf h.ne']
        have : decide (x < 0) = false := by simpa using h.le
        rw [this]; rfl
    · rw [nan_sub, mul_nan, add_nan]
    · have : (inf true - inf true : XF) = nan := rfl
      rw [this, mul_nan, add_nan]
  · rw [nan_add]

/-- C80: a table that starts at or before 0.001 Gyr (the constant T_BIRTH_MIN; the documentation asks for at least 0.01) makes every age weight nan as soon as the birth
time of any age-bin edge, which is never taken to be before 0.001 Gyr, precedes the second table time. -/
theorem C80_early_table_nan (t s : Fin (n + 2) → ℝ) (a : Fin (m + 3) → ℝ) (t_obs sfr_min : ℝ) (ht : StrictMono t)
    (hpos : 0 < t 0) (h0 : t 0 ≤ 0.001) (hs : 0 < sfr_min) (hr : Resolved fun i => Real.logb 10 (t i)) (e : Fin (m + 4))
    (he : birthTime t_obs (get_lg_age_bin_edges a e) < t 1) (i : Fin (m + 3)) :
    XFSed.calc_age_weights_from_sfh_table (fun j => fin (t j)) (fun j => fin (s j)) (fun j => fin (a j)) (fin t_obs)
      (fin sfr_min) i = nan := by
  classical
  have htpos : ∀ i, 0 < t i := fun i => hpos.trans_le (ht.monotone (Fin.zero_le i))
  have hlgt : RepV (fun i => XF.log10 (fin (t i))) (fun i => Jnp.log10 (t i)) := fun i => rep_log10 (Rep.fin _) (htpos i)
  have hmono : StrictMono fun i => Jnp.log10 (t i) := fun i j h => log10_lt (htpos i) (ht h)
  have hf := repV_floor (RepV.fin s) (Rep.fin sfr_min)
  have hfpos : ∀ i, 0 < (if s i < sfr_min then sfr_min else s i) := by
    intro i; split_ifs with h
    · exact hs
    · exact hs.trans_le (not_lt.1 h)
  have hm := repV_mstar (RepV.fin t) hf
  -- the first entry of the log-mass table
  have hA : XFSed.calc_logsm_table_from_sfh_table (fun j => fin (t j)) (fun j => fin (s j)) (fin sfr_min) 0 = inf true ∨
      XFSed.calc_logsm_table_from_sfh_table (fun j => fin (t j)) (fun j => fin (s j)) (fin sfr_min) 0 = nan :=
    log10_nonpos (hm 0) (mstar_first_nonpos t _ h0 hfpos)
  -- and the second
  have hB : ∀ j, IsFinite (XFSed.calc_logsm_table_from_sfh_table (fun j => fin (t j)) (fun j => fin (s j)) (fin sfr_min) j) ∨
      XFSed.calc_logsm_table_from_sfh_table (fun j => fin (t j)) (fun j => fin (s j)) (fin sfr_min) j = nan ∨
      XFSed.calc_logsm_table_from_sfh_table (fun j => fin (t j)) (fun j => fin (s j)) (fin sfr_min) j = inf true := by
    intro j
    rcases le_or_gt (Utils.cumulative_mstar_formed t (fun i => if s i < sfr_min then sfr_min else s i) j) 0 with h | h
    · rcases log10_nonpos (hm j) h with h | h
      · exact Or.inr (Or.inr h)
      · exact Or.inr (Or.inl h)
    · exact Or.inl ⟨_, rep_log10 (hm j) h⟩
  -- the interpolated value at the edge
  have hc := rep_lgt_birth (Rep.fin t_obs) (repV_lg_age_edges (RepV.fin a) e)
  rw [get_lgt_birth_eq] at hc
  have hbt : (0.001 : ℝ) ≤ birthTime t_obs (get_lg_age_bin_edges a e) := le_max_left _ _
  have hx0 : Jnp.log10 (t 0) ≤ Jnp.log10 (birthTime t_obs (get_lg_age_bin_edges a e)) := log10_le hpos (h0.trans hbt)
  have hx1 : Jnp.log10 (birthTime t_obs (get_lg_age_bin_edges a e)) < Jnp.log10 (t 1) := log10_lt (by linarith) he
  have hcell : Jnp.interpCell (fun i => Jnp.log10 (t i)) (Jnp.log10 (birthTime t_obs (get_lg_age_bin_edges a e))) = 0 :=
    interpCell_eq hmono.monotone 0 hx0 hx1
  have hinterp : XFSed.interp (XFSed.get_lgt_birth (fin t_obs) (XFSed.get_lg_age_bin_edges (fun j => fin (a j)) e))
      (fun i => XF.log10 (fin (t i)))
      (XFSed.calc_logsm_table_from_sfh_table (fun j => fin (t j)) (fun j => fin (s j)) (fin sfr_min)) = nan := by
    unfold XFSed.interp XFSed.interpLR
    simp only [cell_eq hlgt hc, hcell]
    have hdx : Rep (XF.log10 (fin (t (Fin.succ (0 : Fin (n + 1))))) - XF.log10 (fin (t (Fin.castSucc (0 : Fin (n + 1))))))
      (Jnp.log10 (t (Fin.succ (0 : Fin (n + 1)))) - Jnp.log10 (t (Fin.castSucc (0 : Fin (n + 1))))) := (hlgt _).sub (hlgt _)
    have hg : ¬ (XFSed.abs (XF.log10 (fin (t (Fin.succ (0 : Fin (n + 1))))) - XF.log10 (fin (t (Fin.castSucc (0 : Fin (n + 1)))))) ≤
        XF.fin Jnp.Dtype.interpEps) := fun h =>
      Resolved.not_guard (xp := fun i => Jnp.log10 (t i)) hr 0 (((rep_abs hdx).le_iff (Rep.fin _)).1 h)
    have h3 := hc.lt_iff (hlgt 0)
    have h4 := (hlgt (Fin.last (n + 1))).lt_iff hc
    rw [if_neg hg, if_neg hg, if_neg (fun h => hx0.not_gt (h3.1 h)),
      if_neg (fun h => (hx1.trans_le (hmono.monotone (Fin.le_last 1))).not_gt (h4.1 h))]
    have hdxpos : 0 < Jnp.log10 (t (Fin.succ (0 : Fin (n + 1)))) - Jnp.log10 (t (Fin.castSucc (0 : Fin (n + 1)))) :=
      sub_pos.2 (hmono (Fin.castSucc_lt_succ (i := 0)))
    have hq := (hc.sub (hlgt (Fin.castSucc (0 : Fin (n + 1))))).div hdx hdxpos.ne'
    exact interp_from_neg_inf hA hq (div_nonneg (sub_nonneg.2 hx0) hdxpos.le) rfl (hB _)
  -- one of the mass increments is nan
  obtain ⟨j, hj⟩ : ∃ j : Fin (m + 3), - XFSed.diff (fun i => XF.exp10 (XFSed.interp (XFSed.get_lgt_birth (fin t_obs)
      (XFSed.get_lg_age_bin_edges (fun j => fin (a j)) i)) (fun i => XF.log10 (fin (t i)))
      (XFSed.calc_logsm_table_from_sfh_table (fun j => fin (t j)) (fun j => fin (s j)) (fin sfr_min)))) j = nan := by
    by_cases hl : e = Fin.last (m + 3)
    · refine ⟨Fin.last (m + 2), ?_⟩
      unfold XFSed.diff Jnp.tail Jnp.init
      simp only
      rw [Fin.succ_last, ← hl, hinterp, exp10_nan, nan_sub, neg_nan]
    · obtain ⟨j, hj⟩ := Fin.exists_castSucc_eq.2 hl
      refine ⟨j, ?_⟩
      unfold XFSed.diff Jnp.tail Jnp.init
      simp only
      rw [hj, hinterp, exp10_nan, sub_nan, neg_nan]
  unfold XFSed.calc_age_weights_from_sfh_table XFSed.calc_age_weights_from_logsm_table
  simp only
  rw [sum_nan hj, div_nan]

/-- C80: in particular for a table starting exactly at 0.001 Gyr, such as the one dsps itself builds in `_get_linspace_time_tables`,
if the age grid reaches beyond the age of the Universe at the time of observation (as the SSP grids of FSPS do). -/
theorem C80_linspace_table_nan (t0 : ℝ) (s : Fin 100 → ℝ) (a : Fin (m + 3) → ℝ) (t_obs sfr_min : ℝ) (hs : 0 < sfr_min)
    (ht0 : 0.01 ≤ t0) (heps : Jnp.Dtype.interpEps ≤ 1e-4)
    (hold : t_obs - (10:ℝ) ^ (get_lg_age_bin_edges a (Fin.last (m + 3))) ≤ 0.001) (i : Fin (m + 3)) :
    XFSed.calc_age_weights_from_sfh_table (n := 98) (fun j => fin ((StellarAgeWeights.get_linspace_time_tables t0).1 j))
      (fun j => fin (s j)) (fun j => fin (a j)) (fin t_obs) (fin sfr_min) i = nan := by
  have e0 : (StellarAgeWeights.get_linspace_time_tables t0).1 0 = 0.001 := by
    show Jnp.linspace T_BIRTH_MIN t0 98 0 = _
    unfold Jnp.linspace
    rw [if_neg (by decide)]
    norm_num [T_BIRTH_MIN]
  have e1 : (StellarAgeWeights.get_linspace_time_tables t0).1 1 = 0.001 + (t0 - 0.001) / 99 := by
    show Jnp.linspace T_BIRTH_MIN t0 98 1 = _
    unfold Jnp.linspace
    rw [if_neg (by decide)]
    norm_num [T_BIRTH_MIN]; ring
  have hmono : StrictMono (StellarAgeWeights.get_linspace_time_tables t0).1 := by
    show StrictMono (Jnp.linspace T_BIRTH_MIN t0 98)
    have hT : T_BIRTH_MIN < t0 := by norm_num [T_BIRTH_MIN] at *; linarith
    rw [Fin.strictMono_iff_lt_succ]
    intro j
    unfold Jnp.linspace
    have hj : (j.castSucc : Fin 100) ≠ Fin.last 99 := (Fin.castSucc_lt_last j).ne
    rw [if_neg hj]
    have hj2 : (j : ℝ) ≤ 98 := by exact_mod_cast Nat.lt_succ_iff.1 j.2
    split_ifs with h
    · simp only [Fin.val_castSucc]
      have : (j : ℝ) / 99 < 1 := by rw [div_lt_one (by norm_num)]; linarith
      norm_num
      nlinarith
    · simp only [Fin.val_castSucc, Fin.val_succ]
      push_cast
      norm_num
      have h1 : ((j : ℝ) + 1) / 99 = j / 99 + 1 / 99 := by ring
      rw [h1]
      nlinarith
  have hr : Resolved (n := 98) fun i => Real.logb 10 ((StellarAgeWeights.get_linspace_time_tables t0).1 i) := by
    intro j
    show Jnp.Dtype.interpEps < Real.logb 10 (Jnp.linspace T_BIRTH_MIN t0 98 j.succ) -
      Real.logb 10 (Jnp.linspace T_BIRTH_MIN t0 98 j.castSucc)
    have hval : ∀ j : Fin 100, Jnp.linspace T_BIRTH_MIN t0 98 j = 0.001 + (t0 - 0.001) / 99 * j := by
      intro j
      unfold Jnp.linspace
      split_ifs with h
      · subst h; norm_num
      · norm_num [T_BIRTH_MIN]; ring
    have hle : Jnp.linspace T_BIRTH_MIN t0 98 j.succ ≤ t0 := by
      rw [hval]
      have hj2 : (j : ℝ) ≤ 98 := by exact_mod_cast Nat.lt_succ_iff.1 j.2
      have : (j : ℝ) + 1 ≤ 99 := by linarith
      simp only [Fin.val_succ]
      push_cast
      have := mul_le_mul_of_nonneg_left this (show 0 ≤ (t0 - 0.001) / 99 by apply div_nonneg <;> norm_num at *; linarith)
      linarith
    have hstep : Jnp.linspace T_BIRTH_MIN t0 98 j.succ - Jnp.linspace T_BIRTH_MIN t0 98 j.castSucc = (t0 - 0.001) / 99 := by
      rw [hval, hval]; simp only [Fin.val_succ, Fin.val_castSucc]; push_cast; ring
    have ha : 0 < Jnp.linspace T_BIRTH_MIN t0 98 j.castSucc := by
      rw [hval]
      have : 0 ≤ (t0 - 0.001) / 99 * ((j.castSucc : Fin 100) : ℝ) := by
        apply mul_nonneg _ (Nat.cast_nonneg _)
        apply div_nonneg <;> norm_num at *; linarith
      norm_num at *; linarith
    have hb : 0 < Jnp.linspace T_BIRTH_MIN t0 98 j.succ := by
      have : 0 ≤ (t0 - 0.001) / 99 := by apply div_nonneg <;> norm_num at *; linarith
      linarith
    generalize Jnp.linspace T_BIRTH_MIN t0 98 j.castSucc = x at *
    generalize Jnp.linspace T_BIRTH_MIN t0 98 j.succ = y at *
    rw [← Real.logb_div hb.ne' ha.ne']
    have h1 : 1 - (y / x)⁻¹ ≤ Real.log (y / x) := Real.one_sub_inv_le_log_of_pos (div_pos hb ha)
    have h2 : Real.log 10 ≤ 9 := (Real.log_le_sub_one_of_pos (by norm_num)).trans (by norm_num)
    have h3 : 0 < Real.log 10 := Real.log_pos (by norm_num)
    have h4 : (1 : ℝ) / 111 ≤ 1 - (y / x)⁻¹ := by
      rw [inv_div, show 1 - x / y = (y - x) / y by field_simp, hstep, div_le_div_iff₀ (by norm_num) hb]
      norm_num at *; linarith
    unfold Real.logb
    rw [lt_div_iff₀ h3]
    have := mul_le_mul heps h2 h3.le (by norm_num)
    norm_num at *; linarith
  refine C80_early_table_nan (n := 98) _ s a t_obs sfr_min hmono ?_ ?_ hs hr (Fin.last (m + 3)) ?_ i
  · exact lt_of_lt_of_eq (by norm_num) e0.symm
  · exact e0.le
  · refine lt_of_eq_of_lt (max_eq_left hold) ?_
    refine lt_of_lt_of_eq ?_ e1.symm
    linarith

/-! ## SEDs -/

omit [Jnp.Dtype] in
theorem rep_ssp_weights {a b : ℕ} {L : Fin a → Fin b → XF} {A : Fin b → XF} {l : Fin a → Fin b → ℝ} {x : Fin b → ℝ}
    (hL : ∀ i j, Rep (L i j) (l i j)) (hA : ∀ j, Rep (A j) (x j)) (h0 : SspWeights.sum2 (fun i j => l i j * x j) ≠ 0)
    (i : Fin a) (j : Fin b) :
    Rep (XFSed.ssp_weights L A i j) (l i j * x j / SspWeights.sum2 (fun i j => l i j * x j)) :=
  ((hL i j).mul (hA j)).div (rep_sum fun i => rep_sum fun j => (hL i j).mul (hA j)) h0

/-- the total mass is finite for every positive time of observation -/
theorem rep_mstar_obs (t s : Fin (n + 2) → ℝ) (t_obs sfr_min : ℝ) (ht : StrictMono t) (h0 : 0.001 < t 0) (hs : 0 < sfr_min)
    (hobs : 0 < t_obs) :
    Rep (XFSed.mstar_obs (fun j => fin (t j)) (fun j => fin (s j)) (fin t_obs) (fin sfr_min))
      (SspWeights.mstar_obs t s t_obs sfr_min) :=
  rep_exp10 (rep_interp (fun i => rep_log10 (Rep.fin _) (lt_trans (by norm_num) (h0.trans_le (ht.monotone (Fin.zero_le i)))))
    (repV_logsm (RepV.fin t) (RepV.fin s) (Rep.fin sfr_min) ht h0 hs) (rep_log10 (Rep.fin _) hobs))

/-- C80: the SED functions never return nan or inf on inputs of the documented kind: increasing table after 0.001 Gyr, increasing age
grid with the youngest bin edge born after the table starts and the oldest before it ends, metallicity scatter not zero, metallicity of the galaxy within (-10, 10) up to
three times the scatter; star formation rates (even negative), metallicity grid and spectra are arbitrary. -/
theorem C80_sed_finite (t s : Fin (n + 2) → ℝ) (gal_lgmet scatter : ℝ) (z : Fin (k + 3) → ℝ) (a : Fin (m + 3) → ℝ)
    (flux : Fin (k + 3) → Fin (m + 3) → Fin w → ℝ) (t_obs sfr_min : ℝ) (ht : StrictMono t) (h0 : 0.001 < t 0)
    (hs : 0 < sfr_min) (hr : Resolved fun i => Real.logb 10 (t i)) (ha : StrictMono a)
    (hyoung : t 0 < t_obs - (10:ℝ) ^ (get_lg_age_bin_edges a 0))
    (hold : t_obs - (10:ℝ) ^ (get_lg_age_bin_edges a (Fin.last (m + 3))) < t (Fin.last (n + 1)))
    (hsc : 0 < scatter) (hz1 : -10 - 3 * scatter < gal_lgmet) (hz2 : gal_lgmet < 10 + 3 * scatter) (l : Fin w) :
    Rep (XFSed.calc_rest_sed_sfh_table_lognormal_mdf (fun j => fin (t j)) (fun j => fin (s j)) (fin gal_lgmet) (fin scatter)
        (fun j => fin (z j)) (fun j => fin (a j)) (fun i j l => fin (flux i j l)) (fin t_obs) (fin sfr_min) l)
      ((SspWeights.calc_rest_sed_sfh_table_lognormal_mdf t s gal_lgmet scatter z a flux t_obs sfr_min).rest_sed l) := by
  have hS : (0:ℝ) < SFR_MIN := by norm_num [SFR_MIN]
  have hage := C80_age_weights_finite t s a t_obs SFR_MIN ht h0 hS hr ha hyoung hold
  have hage1 := C17_age_weights_sum t s a t_obs SFR_MIN hS ht h0 hr ha hyoung hold
  have hmet1 := C21_lgmet_weights_sum gal_lgmet scatter hsc z hz1 hz2
  have hmet : ∀ i, Rep (XFSed.calc_lgmet_weights_from_lognormal_mdf (fin gal_lgmet) (fin scatter) (fun j => fin (z j)) i)
      (MetallicityWeights.calc_lgmet_weights_from_lognormal_mdf gal_lgmet scatter z i) := by
    intro i
    have he := repV_edges (RepV.fin z) (Rep.fin LGMET_LO) (Rep.fin LGMET_HI)
    exact rep_lgmet_singlegal (Rep.fin gal_lgmet) (Rep.fin scatter) hsc.ne' he i
  have htot : SspWeights.sum2 (fun (i : Fin (k + 3)) (j : Fin (m + 3)) =>
      MetallicityWeights.calc_lgmet_weights_from_lognormal_mdf gal_lgmet scatter z i *
      StellarAgeWeights.calc_age_weights_from_sfh_table t s a t_obs SFR_MIN j) ≠ 0 := by
    rw [sum2_eq]
    simp only [← Finset.mul_sum, hage1, mul_one, hmet1]
    norm_num
  have hobs : 0 < t_obs := by
    have := Real.rpow_pos_of_pos (show (0:ℝ) < 10 by norm_num) (get_lg_age_bin_edges a 0)
    norm_num at h0
    linarith
  have hW := rep_ssp_weights (fun i _ => hmet i) hage htot
  exact (rep_sum fun i => rep_sum fun j => (Rep.fin (flux i j l)).mul (hW i j)).mul
    (rep_mstar_obs t s t_obs sfr_min ht h0 hs hobs)

/-- C80: the same with a metallicity history, for a metallicity grid with increasing bin edges. -/
theorem C80_sed_finite_met_table (t s zt : Fin (n + 2) → ℝ) (scatter : ℝ) (z : Fin (k + 3) → ℝ) (a : Fin (m + 3) → ℝ)
    (flux : Fin (k + 3) → Fin (m + 3) → Fin w → ℝ) (t_obs sfr_min : ℝ) (ht : StrictMono t) (h0 : 0.001 < t 0)
    (hs : 0 < sfr_min) (hr : Resolved fun i => Real.logb 10 (t i)) (ha : StrictMono a)
    (hyoung : t 0 < t_obs - (10:ℝ) ^ (get_lg_age_bin_edges a 0))
    (hold : t_obs - (10:ℝ) ^ (get_lg_age_bin_edges a (Fin.last (m + 3))) < t (Fin.last (n + 1)))
    (hsc : 0 < scatter) (hz : Monotone (Utils.get_bin_edges z (-10) 10)) (l : Fin w) :
    Rep (XFSed.calc_rest_sed_sfh_table_met_table (fun j => fin (t j)) (fun j => fin (s j)) (fun j => fin (zt j)) (fin scatter)
        (fun j => fin (z j)) (fun j => fin (a j)) (fun i j l => fin (flux i j l)) (fin t_obs) (fin sfr_min) l)
      ((SspWeights.calc_rest_sed_sfh_table_met_table t s zt scatter z a flux t_obs sfr_min).rest_sed l) := by
  have hS : (0:ℝ) < SFR_MIN := by norm_num [SFR_MIN]
  have hage := C80_age_weights_finite t s a t_obs SFR_MIN ht h0 hS hr ha hyoung hold
  have hage1 := C17_age_weights_sum t s a t_obs SFR_MIN hS ht h0 hr ha hyoung hold
  have hmet1 := (C22_lgmet_table_weights_partial (m := m + 2) t zt scatter hsc z a t_obs hz).2.1
  have hlgt : RepV (fun i => XF.log10 (fin (t i))) (fun i => Jnp.log10 (t i)) := fun i =>
    rep_log10 (Rep.fin _) (lt_trans (by norm_num) (h0.trans_le (ht.monotone (Fin.zero_le i))))
  have hmet : ∀ i j, Rep (XFSed.calc_lgmet_weights_from_lgmet_table (fun j => fin (t j)) (fun j => fin (zt j)) (fin scatter)
        (fun j => fin (z j)) (fun j => fin (a j)) (fin t_obs) i j)
      (MetallicityWeights.calc_lgmet_weights_from_lgmet_table t zt scatter z a t_obs i j) := by
    intro i j
    have he := repV_edges (RepV.fin z) (Rep.fin LGMET_LO) (Rep.fin LGMET_HI)
    have hx := rep_interp hlgt (RepV.fin zt) (rep_lgt_birth (Rep.fin t_obs) (Rep.fin (a j)))
    exact (rep_lgmet_singlegal hx (Rep.fin scatter) hsc.ne' he i).div (Rep.fin ((m + 3 : ℕ) : ℝ)) (by positivity)
  have htot : SspWeights.sum2 (fun (i : Fin (k + 3)) (j : Fin (m + 3)) =>
      MetallicityWeights.calc_lgmet_weights_from_lgmet_table t zt scatter z a t_obs i j *
      StellarAgeWeights.calc_age_weights_from_sfh_table t s a t_obs SFR_MIN j) ≠ 0 := by
    rw [sum2_eq, Finset.sum_comm]
    simp only [← Finset.sum_mul]
    simp only [hmet1, ← Finset.mul_sum, hage1]
    positivity
  have hobs : 0 < t_obs := by
    have := Real.rpow_pos_of_pos (show (0:ℝ) < 10 by norm_num) (get_lg_age_bin_edges a 0)
    norm_num at h0
    linarith
  have hW := rep_ssp_weights hmet hage htot
  exact (rep_sum fun i => rep_sum fun j => (Rep.fin (flux i j l)).mul (hW i j)).mul
    (rep_mstar_obs t s t_obs sfr_min ht h0 hs hobs)

/-- The hypotheses of the finite case: those of C17 (see the example there).  Those of the nan case: the table 0.001, 0.01, 0.1, …
Gyr, ages 0.01, 0.1, 1 Gyr, observed at 0.0015 Gyr. -/
example : ∃ (t : Fin 3 → ℝ) (a : Fin 3 → ℝ) (t_obs : ℝ), StrictMono t ∧ 0 < t 0 ∧ t 0 ≤ 0.001 ∧
    (@Resolved 1 Jnp.Dtype.float64 fun i => Real.logb 10 (t i)) ∧ birthTime t_obs (get_lg_age_bin_edges a (Fin.last 3)) < t 1 := by
  refine ⟨fun i => (10:ℝ) ^ (i : ℕ) / 1000, fun i : Fin 3 => (-2:ℝ) + i * 1, 0.0015, ?_, by norm_num, by norm_num, ?_, ?_⟩
  · intro i j h
    have := strictMono_pow10 3 h
    simp only at this ⊢
    linarith
  · intro i
    have h := resolved_pow10 1 i
    simp only at h ⊢
    rw [Real.logb_div (by positivity) (by norm_num), Real.logb_div (by positivity) (by norm_num)]
    linarith
  · refine max_lt (by norm_num) ?_
    rw [age_edges_example.2]
    have := Real.rpow_pos_of_pos (show (0:ℝ) < 10 by norm_num) 0.5
    norm_num at *; linarith

end Dsps.Props

namespace Dsps.Props
open XF Dsps.Lemmas Dsps.Constants Spec Dsps.StellarAgeWeights

section
attribute [local instance] Jnp.Dtype.float64
/-- C80 applied to the inputs of the examples of C17 and C25 -/
example := C80_age_weights_finite_iff (n := 1) (m := 0) caseT caseS caseA 13 1e-14 caseT_mono caseT_zero (by norm_num)
example (i : Fin 3) := C80_age_weights_finite (n := 1) (m := 0) caseT caseS caseA 13 1e-14 caseT_mono caseT_zero (by norm_num)
  caseT_resolved caseA_mono case_young case_old i
example (l : Fin 2) := C80_sed_finite (n := 1) (m := 0) (k := 2) caseT caseS (-2.6) 0.2 caseZ caseA caseF 13 1e-14 caseT_mono caseT_zero
  (by norm_num) caseT_resolved caseA_mono case_young case_old (by norm_num) (by norm_num) (by norm_num) l
example (l : Fin 2) := C80_sed_finite_met_table (n := 1) (m := 0) (k := 2) caseT caseS caseZT 0.2 caseZ caseA caseF 13 1e-14 caseT_mono
  caseT_zero (by norm_num) caseT_resolved caseA_mono case_young case_old (by norm_num) caseZ_edges l
theorem case_last_edge : get_lg_age_bin_edges (m := 0) caseA (Fin.last 3) = 0.5 := age_edges_example.2
/-- a table that starts at 0.001 Gyr, observed at 0.0015 Gyr -/
example (i : Fin 3) := C80_early_table_nan (n := 1) (m := 0) (fun i => (10:ℝ) ^ (i : ℕ) / 1000) caseS caseA 0.0015 1e-14
  (fun i j h => by
    have := strictMono_pow10 3 h
    simp only at this ⊢
    linarith) (by norm_num) (by norm_num) (by norm_num) (fun i => by
    have h := resolved_pow10 1 i
    simp only at h ⊢
    rw [Real.logb_div (by positivity) (by norm_num), Real.logb_div (by positivity) (by norm_num)]
    linarith) (Fin.last 3) (by
    refine max_lt (by norm_num) ?_
    rw [case_last_edge]
    have := Real.rpow_pos_of_pos (show (0:ℝ) < 10 by norm_num) 0.5
    norm_num at *; linarith) i
/-- the table dsps builds, observed at 3 Gyr with ages up to 10^0.5 Gyr -/
example (s : Fin 100 → ℝ) (i : Fin 3) := C80_linspace_table_nan (m := 0) 13.8 s caseA 3 1e-14 (by norm_num) (by norm_num)
  (by show (2:ℝ)⁻¹ ^ 104 ≤ _; norm_num) (by
    rw [case_last_edge]
    have : (3:ℝ) ≤ (10:ℝ) ^ (0.5:ℝ) := by
      rw [show (0.5:ℝ) = 1 / 2 by norm_num, ← Real.sqrt_eq_rpow]
      exact Real.le_sqrt_of_sq_le (by norm_num)
    linarith) i
end

end Dsps.Props
