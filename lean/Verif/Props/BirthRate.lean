import Verif.Props.RefineSfh
import Mathlib.Order.Monotone.Union

/-! C167: at which rate stars are born between the times of the table, and how fast mass and age weights change with the observation time
(`/repo/dsps/sed/stellar_age_weights.py`). -/
namespace Dsps.Props
open Dsps.Utils Dsps.Lemmas Dsps.StellarAgeWeights Dsps.Constants Jnp Spec Set
open scoped BigOperators

variable {n m : ℕ}

/-- **Specification.** mass formed by the `k`-th table time: the package's cumulative trapezoid sum of the floored rates -/
noncomputable def tableMass (t s : Fin (n + 2) → ℝ) (sfr_min : ℝ) (k : Fin (n + 2)) : ℝ := cumulative_mstar_formed t (fun j => max sfr_min (s j)) k

/-- **Specification.** exponent of the power law which the mass formed follows between the table times `k` and `k + 1` -/
noncomputable def growth (t s : Fin (n + 2) → ℝ) (sfr_min : ℝ) (k : Fin (n + 1)) : ℝ :=
  Real.log (tableMass t s sfr_min k.succ / tableMass t s sfr_min k.castSucc) / Real.log (t k.succ / t k.castSucc)

section
variable {t s : Fin (n + 2) → ℝ} {sfr_min B F : ℝ}

lemma tableMass_pos (hs : 0 < sfr_min) (ht : StrictMono t) (ht0 : 0.001 < t 0) (k : Fin (n + 2)) : 0 < tableMass t s sfr_min k :=
  (C12_mstar_pos_strictMono t (fun j => max sfr_min (s j)) ht ht0 (fun i => lt_max_of_lt_left hs)).1 k

lemma tableMass_lt (hs : 0 < sfr_min) (ht : StrictMono t) (ht0 : 0.001 < t 0) (k : Fin (n + 1)) : tableMass t s sfr_min k.castSucc < tableMass t s sfr_min k.succ :=
  (C12_mstar_pos_strictMono t (fun j => max sfr_min (s j)) ht ht0 (fun i => lt_max_of_lt_left hs)).2 Fin.castSucc_lt_succ

lemma tableMass_step (t s : Fin (n + 2) → ℝ) (sfr_min : ℝ) (k : Fin (n + 1)) :
    tableMass t s sfr_min k.succ - tableMass t s sfr_min k.castSucc = 1e9 * ((t k.succ - t k.castSucc) * (max sfr_min (s k.castSucc) + max sfr_min (s k.succ)) / 2) := by
  unfold tableMass
  rw [(C12_mstar_formula t _).2]
  unfold trapezoidArea
  ring

lemma growth_pos [Dtype] (hs : 0 < sfr_min) (ht : StrictMono t) (ht0 : 0.001 < t 0) (k : Fin (n + 1)) : 0 < growth t s sfr_min k := by
  have h1 := tableMass_pos (s := s) hs ht ht0 k.castSucc
  have h2 := t_pos ht ht0 k.castSucc
  have h3 := ht (Fin.castSucc_lt_succ (i := k))
  exact div_pos (Real.log_pos ((one_lt_div h1).mpr (tableMass_lt hs ht ht0 k))) (Real.log_pos ((one_lt_div h2).mpr h3))

lemma mass_power [Dtype] (hs : 0 < sfr_min) (ht : StrictMono t) (ht0 : 0.001 < t 0) (hr : Resolved fun i => log10 (t i)) (k : Fin (n + 1)) {τ : ℝ}
    (h0 : t k.castSucc ≤ τ) (h1 : τ ≤ t k.succ) :
    massFormed t s sfr_min τ = tableMass t s sfr_min k.castSucc * (τ / t k.castSucc) ^ growth t s sfr_min k ∧
    massFormed t s sfr_min τ = tableMass t s sfr_min k.succ * (τ / t k.succ) ^ growth t s sfr_min k := by
  have hl : 0 < Real.log 10 := Real.log_pos (by norm_num)
  have hp := t_pos ht ht0 k.castSucc
  have hps := t_pos ht ht0 k.succ
  have hτ := hp.trans_le h0
  have hm := tableMass_pos (s := s) hs ht ht0 k.castSucc
  have hm' := tableMass_pos (s := s) hs ht ht0 k.succ
  have hlt := Real.log_lt_log hp (ht (Fin.castSucc_lt_succ (i := k)))
  have hne : Real.log (t k.succ) - Real.log (t k.castSucc) ≠ 0 := (sub_pos.mpr hlt).ne'
  obtain ⟨c1, c2⟩ := C20_mass_history t s sfr_min ht ht0 hs hr
  have e := c2 k τ h0 h1
  rw [c1, c1] at e
  change Real.logb 10 _ = Real.logb 10 (tableMass t s sfr_min k.castSucc) + _ * (Real.logb 10 (tableMass t s sfr_min k.succ) - Real.logb 10 (tableMass t s sfr_min k.castSucc)) at e
  have e2 : Real.log (massFormed t s sfr_min τ) = Real.log (tableMass t s sfr_min k.castSucc) + (Real.log τ - Real.log (t k.castSucc)) * growth t s sfr_min k := by
    unfold growth
    rw [Real.log_div hm'.ne' hm.ne', Real.log_div hps.ne' hp.ne']
    simp only [Real.logb] at e
    field_simp at e ⊢
    linarith
  have hM := massFormed_pos (t := t) (s := s) (sfr_min := sfr_min) τ
  have e3 : massFormed t s sfr_min τ = tableMass t s sfr_min k.castSucc * (τ / t k.castSucc) ^ growth t s sfr_min k := by
    rw [← Real.exp_log hM, e2, Real.exp_add, Real.exp_log hm, Real.rpow_def_of_pos (div_pos hτ hp), Real.log_div hτ.ne' hp.ne']
  refine ⟨e3, ?_⟩
  rw [e3, show τ / t k.castSucc = (τ / t k.succ) * (t k.succ / t k.castSucc) by field_simp, Real.mul_rpow (by positivity) (by positivity)]
  have e4 : (t k.succ / t k.castSucc) ^ growth t s sfr_min k = tableMass t s sfr_min k.succ / tableMass t s sfr_min k.castSucc := by
    have hq : Real.log (t k.succ / t k.castSucc) ≠ 0 := by rwa [Real.log_div hps.ne' hp.ne']
    rw [Real.rpow_def_of_pos (by positivity)]
    unfold growth
    rw [mul_div_cancel₀ _ hq, Real.exp_log (by positivity)]
  rw [e4]
  field_simp

/-- C167: **the rate at which stars are born**: strictly between two table times the mass formed grows at the rate `p M(τ) / τ` (Msun per Gyr), `p` being
the growth exponent of the cell. -/
theorem C167_rate [Dtype] (hs : 0 < sfr_min) (ht : StrictMono t) (ht0 : 0.001 < t 0) (hr : Resolved fun i => log10 (t i)) (k : Fin (n + 1)) {τ : ℝ}
    (h0 : t k.castSucc < τ) (h1 : τ < t k.succ) :
    HasDerivAt (massFormed t s sfr_min) (growth t s sfr_min k * massFormed t s sfr_min τ / τ) τ := by
  have hp := t_pos ht ht0 k.castSucc
  have hτ := hp.trans h0
  have hd := (((hasDerivAt_id τ).div_const (t k.castSucc)).rpow_const (p := growth t s sfr_min k) (Or.inl (div_pos hτ hp).ne')).const_mul (tableMass t s sfr_min k.castSucc)
  rw [(mass_power hs ht ht0 hr k h0.le h1.le).1]
  refine (hd.congr_of_eventuallyEq ?_).congr_deriv ?_
  · filter_upwards [eventually_gt_nhds h0, eventually_lt_nhds h1] with u hu hu'
    exact (mass_power hs ht ht0 hr k hu.le hu'.le).1
  · simp only [id]
    rw [Real.rpow_sub_one (div_pos hτ hp).ne']
    field_simp

/-- the implied rate against the mean rate of the cell -/
lemma rate_le [Dtype] (hs : 0 < sfr_min) (ht : StrictMono t) (ht0 : 0.001 < t 0) (hr : Resolved fun i => log10 (t i)) (k : Fin (n + 1)) {τ : ℝ}
    (h0 : t k.castSucc ≤ τ) (h1 : τ ≤ t k.succ) :
    growth t s sfr_min k * massFormed t s sfr_min τ / τ ≤ max (1 + Real.log (tableMass t s sfr_min k.succ / tableMass t s sfr_min k.castSucc)) (t k.succ / t k.castSucc) *
      ((tableMass t s sfr_min k.succ - tableMass t s sfr_min k.castSucc) / (t k.succ - t k.castSucc)) := by
  have hp := t_pos ht ht0 k.castSucc
  have hps := t_pos ht ht0 k.succ
  have hτ := hp.trans_le h0
  have hm := tableMass_pos (s := s) hs ht ht0 k.castSucc
  have hm' := tableMass_pos (s := s) hs ht ht0 k.succ
  have hmm := tableMass_lt (s := s) hs ht ht0 k
  have htt := ht (Fin.castSucc_lt_succ (i := k))
  have hg := growth_pos (s := s) hs ht ht0 k
  obtain ⟨e1, e2⟩ := mass_power (s := s) hs ht ht0 hr k h0 h1
  have hw : growth t s sfr_min k * Real.log (t k.succ / t k.castSucc) = Real.log (tableMass t s sfr_min k.succ / tableMass t s sfr_min k.castSucc) := by
    unfold growth
    have : Real.log (t k.succ / t k.castSucc) ≠ 0 := (Real.log_pos ((one_lt_div hp).mpr htt)).ne'
    field_simp
  have top := (mass_power (s := s) hs ht ht0 hr k htt.le le_rfl).1
  have top2 := (mass_power (s := s) hs ht ht0 hr k htt.le le_rfl).2
  rw [div_self hps.ne', Real.one_rpow, mul_one] at top2
  rw [top2] at top
  generalize massFormed t s sfr_min τ = M at *
  generalize growth t s sfr_min k = p at *
  generalize tableMass t s sfr_min k.castSucc = m at *
  generalize tableMass t s sfr_min k.succ = m' at *
  generalize t k.castSucc = a at *
  generalize t k.succ = b at *
  have hba : 0 < b - a := sub_pos.mpr htt
  have hmean : 0 < (m' - m) / (b - a) := div_pos (sub_pos.mpr hmm) hba
  rcases le_total 1 p with h | h
  · -- fastest at the end of the cell
    refine le_trans ?_ (mul_le_mul_of_nonneg_right (le_max_left _ _) hmean.le)
    have q1 : M / τ ≤ m' / b := by
      rw [e2]
      have hr1 : (τ / b) ^ p ≤ τ / b := by
        have := Real.rpow_le_rpow_of_exponent_ge (div_pos hτ hps) ((div_le_one hps).mpr h1) h
        rwa [Real.rpow_one] at this
      rw [div_le_div_iff₀ hτ hps]
      have : m' * (τ / b) ^ p * b ≤ m' * (τ / b) * b := by gcongr
      refine this.trans_eq (by field_simp)
    have q2 : p * (m' / b) ≤ Real.log (m' / m) * m' / (b - a) := by
      have hlog := Real.one_sub_inv_le_log_of_pos (div_pos hps hp)
      rw [inv_div] at hlog
      have : (b - a) / b ≤ Real.log (b / a) := by
        rwa [show (b - a) / b = 1 - a / b by field_simp]
      rw [← hw, le_div_iff₀ hba]
      have := mul_le_mul_of_nonneg_left this (by positivity : 0 ≤ p * m')
      calc p * (m' / b) * (b - a) = p * m' * ((b - a) / b) := by ring
        _ ≤ p * m' * Real.log (b / a) := this
        _ = _ := by ring
    have q3 : Real.log (m' / m) * m' ≤ (1 + Real.log (m' / m)) * (m' - m) := by
      have := Real.log_le_sub_one_of_pos (div_pos hm' hm)
      have h4 : Real.log (m' / m) * m ≤ m' - m := by
        have := mul_le_mul_of_nonneg_right this hm.le
        refine this.trans_eq (by field_simp)
      nlinarith
    calc p * M / τ = p * (M / τ) := by ring
      _ ≤ p * (m' / b) := by gcongr
      _ ≤ _ := q2
      _ ≤ (1 + Real.log (m' / m)) * (m' - m) / (b - a) := div_le_div_of_nonneg_right q3 hba.le
      _ = _ := by ring
  · -- fastest at the beginning of the cell
    refine le_trans ?_ (mul_le_mul_of_nonneg_right (le_max_right _ _) hmean.le)
    have q1 : M / τ ≤ m / a := by
      rw [e1]
      have hr1 : (τ / a) ^ p ≤ τ / a := by
        have := Real.rpow_le_rpow_of_exponent_le ((one_le_div hp).mpr h0) h
        rwa [Real.rpow_one] at this
      rw [div_le_div_iff₀ hτ hp]
      have : m * (τ / a) ^ p * a ≤ m * (τ / a) * a := by gcongr
      refine this.trans_eq (by field_simp)
    have q2 : p * (b - a) / b ≤ (m' - m) / m := by
      rw [top, show (m * (b / a) ^ p - m) / m = (b / a) ^ p - 1 by field_simp]
      have h5 : p * Real.log (b / a) ≤ (b / a) ^ p - 1 := by
        have := Real.add_one_le_exp (Real.log (b / a) * p)
        rw [Real.rpow_def_of_pos (by positivity)]
        linarith
      have hlog := Real.one_sub_inv_le_log_of_pos (div_pos hps hp)
      rw [inv_div] at hlog
      refine le_trans ?_ h5
      rw [show p * (b - a) / b = p * (1 - a / b) by field_simp]
      exact mul_le_mul_of_nonneg_left hlog hg.le
    rw [div_le_div_iff₀ hps hm] at q2
    calc p * M / τ = p * (M / τ) := by ring
      _ ≤ p * (m / a) := by gcongr
      _ ≤ _ := by
        rw [div_mul_div_comm, ← mul_div_assoc, div_le_div_iff₀ hp (by positivity)]
        nlinarith

/-- C167: **the rate is bounded**: nowhere in a cell are stars born faster than the mean of the two tabulated (floored) rates times the larger of
`1 + log` of the cell's growth in mass and the ratio of its times. -/
theorem C167_rate_bound [Dtype] (hs : 0 < sfr_min) (ht : StrictMono t) (ht0 : 0.001 < t 0) (hr : Resolved fun i => log10 (t i)) (k : Fin (n + 1)) {τ : ℝ}
    (h0 : t k.castSucc < τ) (h1 : τ < t k.succ) :
    0 < deriv (massFormed t s sfr_min) τ ∧ deriv (massFormed t s sfr_min) τ ≤
      max (1 + Real.log (tableMass t s sfr_min k.succ / tableMass t s sfr_min k.castSucc)) (t k.succ / t k.castSucc) *
        (1e9 * ((max sfr_min (s k.castSucc) + max sfr_min (s k.succ)) / 2)) := by
  have hτ := (t_pos ht ht0 k.castSucc).trans h0
  have hba := sub_pos.mpr (ht (Fin.castSucc_lt_succ (i := k)))
  rw [(C167_rate hs ht ht0 hr k h0 h1).deriv]
  refine ⟨div_pos (mul_pos (growth_pos hs ht ht0 k) (massFormed_pos _)) hτ, (rate_le hs ht ht0 hr k h0.le h1.le).trans_eq ?_⟩
  rw [tableMass_step]
  field_simp

/-- C167: **sensitivity of the mass to time**: between any two times the mass formed grows by at most `10⁹ B F` Msun per Gyr, where `B` bounds the tabulated
rates and `F` the ratio of neighbouring times and `1 + log` of the growth of mass between them. -/
theorem C167_mass_lipschitz [Dtype] (hs : 0 < sfr_min) (ht : StrictMono t) (ht0 : 0.001 < t 0) (hr : Resolved fun i => log10 (t i)) (hB : ∀ i, max sfr_min (s i) ≤ B)
    (hF : ∀ k : Fin (n + 1), t k.succ ≤ F * t k.castSucc ∧ 1 + Real.log (tableMass t s sfr_min k.succ / tableMass t s sfr_min k.castSucc) ≤ F) {τ τ' : ℝ}
    (h0 : 0 < τ) (h : τ ≤ τ') :
    massFormed t s sfr_min τ' - massFormed t s sfr_min τ ≤ 1e9 * B * F * (τ' - τ) := by
  have hBp : 0 < B := lt_of_lt_of_le hs ((le_max_left _ _).trans (hB 0))
  have hFp : 0 < F := by
    have := (hF 0).1
    have h2 := t_pos ht ht0 (Fin.succ 0)
    have h3 := t_pos ht ht0 (Fin.castSucc 0)
    by_contra hc
    nlinarith [mul_nonneg (neg_nonneg.mpr (not_lt.mp hc)) h3.le]
  set g : ℝ → ℝ := fun x => 1e9 * B * F * x - massFormed t s sfr_min x with hg
  have cell : ∀ k : Fin (n + 1), MonotoneOn g (Icc (t k.castSucc) (t k.succ)) := by
    intro k
    have hp := t_pos ht ht0 k.castSucc
    have hc : ContinuousOn (massFormed t s sfr_min) (Icc (t k.castSucc) (t k.succ)) := by
      have : ContinuousOn (fun x => tableMass t s sfr_min k.castSucc * (x / t k.castSucc) ^ growth t s sfr_min k) (Icc (t k.castSucc) (t k.succ)) :=
        continuousOn_const.mul ((continuousOn_id.div_const _).rpow_const fun x hx => Or.inl (div_pos (hp.trans_le hx.1) hp).ne')
      exact this.congr fun x hx => (mass_power hs ht ht0 hr k hx.1 hx.2).1
    refine monotoneOn_of_deriv_nonneg (convex_Icc _ _) ((by fun_prop : Continuous fun x : ℝ => 1e9 * B * F * x).continuousOn.sub hc) ?_ ?_
    · intro x hx
      rw [interior_Icc] at hx
      exact (((hasDerivAt_id x).const_mul (1e9 * B * F)).sub (C167_rate hs ht ht0 hr k hx.1 hx.2)).differentiableAt.differentiableWithinAt
    · intro x hx
      rw [interior_Icc] at hx
      have hd := C167_rate (s := s) hs ht ht0 hr k hx.1 hx.2
      have hb := (C167_rate_bound (s := s) hs ht ht0 hr k hx.1 hx.2).2
      have hgd : HasDerivAt g (1e9 * B * F * 1 - growth t s sfr_min k * massFormed t s sfr_min x / x) x := ((hasDerivAt_id x).const_mul (1e9 * B * F)).sub hd
      rw [hgd.deriv]
      rw [hd.deriv] at hb
      have hf : max (1 + Real.log (tableMass t s sfr_min k.succ / tableMass t s sfr_min k.castSucc)) (t k.succ / t k.castSucc) ≤ F :=
        max_le (hF k).2 ((div_le_iff₀ hp).mpr (hF k).1)
      have hm0 : 0 ≤ 1e9 * ((max sfr_min (s k.castSucc) + max sfr_min (s k.succ)) / 2) := by
        have := hs.le.trans (le_max_left sfr_min (s k.castSucc))
        have := hs.le.trans (le_max_left sfr_min (s k.succ))
        positivity
      have hm1 : 1e9 * ((max sfr_min (s k.castSucc) + max sfr_min (s k.succ)) / 2) ≤ 1e9 * B := by
        linarith [hB k.castSucc, hB k.succ]
      have := hb.trans (mul_le_mul hf hm1 hm0 hFp.le)
      linarith
  have upto : ∀ k : Fin (n + 2), MonotoneOn g (Icc (t 0) (t k)) := by
    intro k
    induction k using Fin.induction with
    | zero => simp
    | succ k ih =>
      have hle := ht.monotone (Fin.zero_le k.castSucc)
      have hle' := (ht (Fin.castSucc_lt_succ (i := k))).le
      have := MonotoneOn.union_right ih (cell k) (isGreatest_Icc hle) (isLeast_Icc hle')
      rwa [Icc_union_Icc_eq_Icc hle hle'] at this
  have early : ∀ x, 0 < x → massFormed t s sfr_min (max (t 0) x) = massFormed t s sfr_min x := by
    intro x hx
    rcases le_total x (t 0) with hc | hc
    · rw [max_eq_left hc, massFormed_before ht ht0 hx hc]
    · rw [max_eq_right hc]
  have late : ∀ x, massFormed t s sfr_min (min x (t (Fin.last (n + 1)))) = massFormed t s sfr_min x := by
    intro x
    rcases le_total x (t (Fin.last (n + 1))) with hc | hc
    · rw [min_eq_left hc]
    · rw [min_eq_right hc, massFormed_after ht ht0 hr hc]
  have hl := ht.monotone (Fin.zero_le (Fin.last (n + 1)))
  set x := min (max (t 0) τ) (t (Fin.last (n + 1))) with hx
  set y := min (max (t 0) τ') (t (Fin.last (n + 1))) with hy
  have ex : massFormed t s sfr_min x = massFormed t s sfr_min τ := by rw [hx, late, early _ h0]
  have ey : massFormed t s sfr_min y = massFormed t s sfr_min τ' := by rw [hy, late, early _ (h0.trans_le h)]
  have hxy : x ≤ y := min_le_min (max_le_max le_rfl h) le_rfl
  have hd : y - x ≤ τ' - τ := by
    have h1 : |y - x| ≤ |max (t 0) τ' - max (t 0) τ| := by
      rw [hx, hy]; exact abs_inf_sub_inf_le_abs _ _ _
    have h2 := abs_floor (t 0) τ' τ
    rw [abs_of_nonneg (sub_nonneg.mpr h)] at h2
    exact (le_abs_self _).trans (h1.trans h2)
  have := upto (Fin.last (n + 1)) ⟨le_min (le_max_left _ _) hl, min_le_right _ _⟩ ⟨le_min (le_max_left _ _) hl, min_le_right _ _⟩ hxy
  simp only [hg] at this
  rw [← ex, ← ey]
  have hL : 0 ≤ 1e9 * B * F := by positivity
  nlinarith [mul_le_mul_of_nonneg_left hd hL]

/-- C167: **sensitivity of the age weights to the observation time**: moving the observation by `Δ` Gyr changes every age weight by at most
`4 · 10⁹ B F Δ` over the mass formed in the range of the age grid. -/
theorem C167_age_weights_lipschitz [Dtype] {a : Fin (m + 3) → ℝ} {t_obs t_obs' : ℝ} (hs : 0 < sfr_min) (ht : StrictMono t) (ht0 : 0.001 < t 0) (hr : Resolved fun i => log10 (t i))
    (hB : ∀ i, max sfr_min (s i) ≤ B)
    (hF : ∀ k : Fin (n + 1), t k.succ ≤ F * t k.castSucc ∧ 1 + Real.log (tableMass t s sfr_min k.succ / tableMass t s sfr_min k.castSucc) ≤ F)
    (he : Monotone (get_lg_age_bin_edges a)) (i : Fin (m + 3)) :
    let D := massFormed t s sfr_min (birthTime t_obs (get_lg_age_bin_edges a 0)) - massFormed t s sfr_min (birthTime t_obs (get_lg_age_bin_edges a (Fin.last (m + 3))))
    0 < D → |calc_age_weights_from_sfh_table t s a t_obs' sfr_min i - calc_age_weights_from_sfh_table t s a t_obs sfr_min i| ≤ 4 * (1e9 * B * F * |t_obs' - t_obs|) / D := by
  intro D hD
  have hb : ∀ x, |massFormed t s sfr_min (birthTime t_obs' x) - massFormed t s sfr_min (birthTime t_obs x)| ≤ 1e9 * B * F * |t_obs' - t_obs| := by
    intro x
    have hL : 0 ≤ 1e9 * B * F := by
      have hBp : 0 < B := lt_of_lt_of_le hs ((le_max_left _ _).trans (hB 0))
      have := C167_mass_lipschitz hs ht ht0 hr hB hF (τ := 1) (τ' := 2) one_pos (by norm_num)
      have h2 := massFormed_mono (s := s) ht ht0 hs one_pos (by norm_num : (1:ℝ) ≤ 2)
      linarith
    have hbt : |birthTime t_obs' x - birthTime t_obs x| ≤ |t_obs' - t_obs| := by
      unfold birthTime
      refine (abs_floor _ _ _).trans (le_of_eq ?_)
      congr 1; ring
    rcases le_total (birthTime t_obs x) (birthTime t_obs' x) with h | h
    · have h1 := C167_mass_lipschitz hs ht ht0 hr hB hF (birthTime_pos _ _) h
      have h2 := massFormed_mono (s := s) ht ht0 hs (birthTime_pos _ _) h
      rw [abs_of_nonneg (sub_nonneg.mpr h2)]
      rw [abs_of_nonneg (sub_nonneg.mpr h)] at hbt
      exact h1.trans (mul_le_mul_of_nonneg_left hbt hL)
    · have h1 := C167_mass_lipschitz hs ht ht0 hr hB hF (birthTime_pos _ _) h
      have h2 := massFormed_mono (s := s) ht ht0 hs (birthTime_pos _ _) h
      rw [abs_sub_comm, abs_of_nonneg (sub_nonneg.mpr h2)]
      rw [abs_sub_comm, abs_of_nonneg (sub_nonneg.mpr h)] at hbt
      exact h1.trans (mul_le_mul_of_nonneg_left hbt hL)
  have mono : ∀ x y, x ≤ y → massFormed t s sfr_min (birthTime t_obs' y) ≤ massFormed t s sfr_min (birthTime t_obs' x) :=
    fun x y h => massFormed_mono ht ht0 hs (birthTime_pos _ _) (birthTime_anti _ h)
  have d : ∀ {p p' q q' E : ℝ}, |p' - p| ≤ E → |q' - q| ≤ E → |(p' - q') - (p - q)| ≤ 2 * E := by
    intro p p' q q' E h1 h2
    rw [abs_le] at *
    constructor <;> linarith [h1.1, h1.2, h2.1, h2.2]
  rw [age_weights_eq, age_weights_eq]
  refine ratio_err ?_ ?_ hD (d (hb _) (hb _)) (d (hb _) (hb _))
  · exact sub_nonneg.mpr (mono _ _ (he (Fin.castSucc_lt_succ (i := i)).le))
  · exact sub_le_sub (mono _ _ (he (Fin.zero_le _))) (mono _ _ (he (Fin.le_last _)))

/-- C167: **an onset of star formation is delayed within its cell**: if the mass grows over a cell at least as the `q`-th power of time, then at most the
share `(τ / t_{k+1})^q` of it is formed by `τ`. -/
theorem C167_onset [Dtype] (hs : 0 < sfr_min) (ht : StrictMono t) (ht0 : 0.001 < t 0) (hr : Resolved fun i => log10 (t i)) (k : Fin (n + 1)) {q τ : ℝ}
    (hq : (t k.succ / t k.castSucc) ^ q * tableMass t s sfr_min k.castSucc ≤ tableMass t s sfr_min k.succ) (h0 : t k.castSucc ≤ τ) (h1 : τ ≤ t k.succ) :
    massFormed t s sfr_min τ ≤ (τ / t k.succ) ^ q * massFormed t s sfr_min (t k.succ) := by
  have hp := t_pos ht ht0 k.castSucc
  have hps := t_pos ht ht0 k.succ
  have hm := tableMass_pos (s := s) hs ht ht0 k.castSucc
  have hm' := tableMass_pos (s := s) hs ht ht0 k.succ
  have htt := ht (Fin.castSucc_lt_succ (i := k))
  have hl : 0 < Real.log (t k.succ / t k.castSucc) := Real.log_pos ((one_lt_div hp).mpr htt)
  have hqg : q ≤ growth t s sfr_min k := by
    unfold growth
    rw [le_div_iff₀ hl, ← Real.log_rpow (div_pos hps hp)]
    refine Real.log_le_log (Real.rpow_pos_of_pos (div_pos hps hp) _) ?_
    rwa [le_div_iff₀ hm]
  rw [(mass_power hs ht ht0 hr k h0 h1).2, (mass_power hs ht ht0 hr k htt.le le_rfl).2, div_self hps.ne', Real.one_rpow, mul_one, mul_comm]
  refine mul_le_mul_of_nonneg_right ?_ hm'.le
  exact Real.rpow_le_rpow_of_exponent_ge (div_pos (hp.trans_le h0) hps) ((div_le_one hps).mpr h1) hqg
end

section
attribute [local instance] Dtype.float64

/-- table times 1 and 10 Gyr -/
noncomputable def onsetT : Fin 2 → ℝ := fun i => (10:ℝ) ^ (i : ℕ)
/-- no star formation at 1 Gyr, 1 Msun/yr at 10 Gyr -/
noncomputable def onsetS : Fin 2 → ℝ := ![0, 1]

lemma onset_first : tableMass (n := 0) onsetT onsetS 1e-14 0 = 9.99e-6 := by
  unfold tableMass
  rw [(C12_mstar_formula _ _).1]
  norm_num [trapezoidArea, onsetT, onsetS]

lemma onset_second : tableMass (n := 0) onsetT onsetS 1e-14 1 = 9.99e-6 + 4.500000000000045e9 := by
  have h := tableMass_step (n := 0) onsetT onsetS 1e-14 0
  have h1 : tableMass (n := 0) onsetT onsetS 1e-14 (Fin.succ 0) = tableMass (n := 0) onsetT onsetS 1e-14 1 := rfl
  have h2 : tableMass (n := 0) onsetT onsetS 1e-14 (Fin.castSucc 0) = tableMass (n := 0) onsetT onsetS 1e-14 0 := rfl
  rw [h1, h2, onset_first] at h
  norm_num [onsetT, onsetS] at h ⊢
  linarith

lemma onset_growth : ((onsetT (Fin.succ 0) / onsetT (Fin.castSucc 0)) ^ (14:ℝ)) * tableMass (n := 0) onsetT onsetS 1e-14 (Fin.castSucc 0) ≤
    tableMass (n := 0) onsetT onsetS 1e-14 (Fin.succ 0) := by
  have h1 : tableMass (n := 0) onsetT onsetS 1e-14 (Fin.succ 0) = tableMass (n := 0) onsetT onsetS 1e-14 1 := rfl
  have h2 : tableMass (n := 0) onsetT onsetS 1e-14 (Fin.castSucc 0) = tableMass (n := 0) onsetT onsetS 1e-14 0 := rfl
  rw [h1, h2, onset_first, onset_second, show onsetT (Fin.succ 0) / onsetT (Fin.castSucc 0) = 10 by norm_num [onsetT], show (14:ℝ) = ((14:ℕ):ℝ) by norm_num, Real.rpow_natCast]
  norm_num

/-- C167, finding: of a star formation rate that rises in a straight line from zero at 1 Gyr to 1 Msun/yr at 10 Gyr, 64 per cent of the mass is formed by
8.2 Gyr, but given as a table with these two times less than 7 per cent of the mass counts as formed by then: in the table's spectrum most stars are younger than 1.8 Gyr. -/
theorem C167_onset_late : (∫ x in (1:ℝ)..8.2, (x - 1) / 9) = 0.64 * ∫ x in (1:ℝ)..10, (x - 1) / 9 ∧
    massFormed (n := 0) onsetT onsetS 1e-14 8.2 < 0.07 * massFormed (n := 0) onsetT onsetS 1e-14 10 := by
  constructor
  · have : ∀ b : ℝ, ∫ x in (1:ℝ)..b, (x - 1) / 9 = (b - 1) ^ 2 / 18 := by
      intro b
      rw [intervalIntegral.integral_div, intervalIntegral.integral_sub (by simp) (by simp)]
      simp; ring
    rw [this, this]; norm_num
  · have hT : onsetT (Fin.succ 0) = 10 := by norm_num [onsetT]
    have h := C167_onset (n := 0) (t := onsetT) (s := onsetS) (sfr_min := 1e-14) (by norm_num) (strictMono_pow10 2) (by norm_num [onsetT]) (resolved_pow10 0) 0
      (q := 14) (τ := 8.2) onset_growth (by norm_num [onsetT]) (by norm_num [onsetT])
    rw [hT] at h
    refine h.trans_lt (mul_lt_mul_of_pos_right ?_ (massFormed_pos _))
    rw [show (14:ℝ) = ((14:ℕ):ℝ) by norm_num, Real.rpow_natCast]
    norm_num

/-- C167, finding: just before 10 Gyr the same table forms stars at over six times the largest rate it contains. -/
theorem C167_rate_exceeds : ∃ τ ∈ Ioo (1:ℝ) 10, 6 * (1e9 * 1) < deriv (massFormed (n := 0) onsetT onsetS 1e-14) τ := by
  have hm : StrictMono onsetT := strictMono_pow10 2
  have hT : onsetT (Fin.succ 0) = 10 := by norm_num [onsetT]
  have hT0 : onsetT (Fin.castSucc 0) = 1 := by norm_num [onsetT]
  have hg : 14 ≤ growth (n := 0) onsetT onsetS 1e-14 0 := by
    have h := onset_growth
    rw [hT, hT0] at h
    unfold growth
    rw [hT, hT0, le_div_iff₀ (Real.log_pos (by norm_num)), ← Real.log_rpow (by norm_num)]
    refine Real.log_le_log (Real.rpow_pos_of_pos (by norm_num) _) ?_
    rwa [le_div_iff₀ (tableMass_pos (n := 0) (t := onsetT) (s := onsetS) (by norm_num) hm (by norm_num [onsetT]) _)]
  have hM : massFormed (n := 0) onsetT onsetS 1e-14 10 = 9.99e-6 + 4.500000000000045e9 := by
    have := massFormed_table (n := 0) (t := onsetT) (s := onsetS) (sfr_min := 1e-14) hm (by norm_num [onsetT]) (by norm_num) (resolved_pow10 0) 1
    rw [← onset_second]
    rwa [show onsetT 1 = 10 by norm_num [onsetT]] at this
  have hL : ∀ᶠ τ in nhdsWithin (10:ℝ) (Iio 10), massFormed (n := 0) onsetT onsetS 1e-14 τ > 4.4e9 ∧ τ ∈ Ioo (1:ℝ) 10 := by
    have hc : Filter.Tendsto (fun x => tableMass (n := 0) onsetT onsetS 1e-14 (Fin.castSucc 0) * (x / 1) ^ growth (n := 0) onsetT onsetS 1e-14 0) (nhdsWithin (10:ℝ) (Iio 10))
        (nhds (massFormed (n := 0) onsetT onsetS 1e-14 10)) := by
      have e := (mass_power (n := 0) (s := onsetS) (sfr_min := 1e-14) (t := onsetT) (by norm_num) hm (by norm_num [onsetT]) (resolved_pow10 0) 0 (τ := 10) (by rw [hT0]; norm_num) (by rw [hT])).1
      rw [hT0] at e
      rw [e]
      refine Filter.Tendsto.mono_left (ContinuousAt.tendsto ?_) nhdsWithin_le_nhds
      exact continuousAt_const.mul ((continuousAt_id.div_const 1).rpow_const (Or.inl (by norm_num)))
    have h1 : ∀ᶠ τ in nhdsWithin (10:ℝ) (Iio 10), τ ∈ Ioo (1:ℝ) 10 := Ioo_mem_nhdsLT (by norm_num)
    have h2 := hc.eventually (lt_mem_nhds (show (4.4e9:ℝ) < _ by rw [hM]; norm_num))
    filter_upwards [h1, h2] with τ h1 h2
    refine ⟨?_, h1⟩
    have e := (mass_power (n := 0) (s := onsetS) (sfr_min := 1e-14) (t := onsetT) (by norm_num) hm (by norm_num [onsetT]) (resolved_pow10 0) 0 (τ := τ) (by rw [hT0]; exact h1.1.le) (by rw [hT]; exact h1.2.le)).1
    rw [hT0] at e
    rw [e]; exact h2
  obtain ⟨τ, h1, h2⟩ := hL.exists
  refine ⟨τ, h2, ?_⟩
  rw [(C167_rate (n := 0) (s := onsetS) (sfr_min := 1e-14) (t := onsetT) (by norm_num) hm (by norm_num [onsetT]) (resolved_pow10 0) 0 (by rw [hT0]; exact h2.1) (by rw [hT]; exact h2.2)).deriv,
    lt_div_iff₀ (by linarith [h2.1])]
  have : 14 * 4.4e9 ≤ growth (n := 0) onsetT onsetS 1e-14 0 * massFormed (n := 0) onsetT onsetS 1e-14 τ := mul_le_mul hg h1.le (by norm_num) (by linarith)
  have h3 := h2.2
  norm_num at this ⊢
  linarith

/-- case: times 1, 10 and 100 Gyr, rates 3, 1, 2 -/
example : ∃ F, ∀ τ τ', 0 < τ → τ ≤ τ' → massFormed (n := 1) caseT caseS 1e-14 τ' - massFormed (n := 1) caseT caseS 1e-14 τ ≤ 1e9 * 3 * F * (τ' - τ) := by
  refine ⟨max 10 (max (1 + Real.log (tableMass (n := 1) caseT caseS 1e-14 (Fin.succ 0) / tableMass (n := 1) caseT caseS 1e-14 (Fin.castSucc 0)))
    (1 + Real.log (tableMass (n := 1) caseT caseS 1e-14 (Fin.succ 1) / tableMass (n := 1) caseT caseS 1e-14 (Fin.castSucc 1)))), fun τ τ' h0 h =>
    C167_mass_lipschitz (n := 1) (by norm_num) caseT_mono caseT_zero caseT_resolved (fun i => by fin_cases i <;> norm_num [caseS]) (fun k => ⟨?_, ?_⟩) h0 h⟩
  · have hk : caseT k.succ = 10 * caseT k.castSucc := by simp [caseT, pow_succ]; ring
    rw [hk]
    exact mul_le_mul_of_nonneg_right (le_max_left _ _) (t_pos caseT_mono caseT_zero _).le
  · fin_cases k
    · exact (le_max_left _ _).trans (le_max_right _ _)
    · exact (le_max_right _ _).trans (le_max_right _ _)
example := C167_rate (n := 1) (t := caseT) (s := caseS) (sfr_min := 1e-14) (by norm_num) caseT_mono caseT_zero caseT_resolved 0 (τ := 2) (by norm_num [caseT]) (by norm_num [caseT])
example := C167_rate_bound (n := 1) (t := caseT) (s := caseS) (sfr_min := 1e-14) (by norm_num) caseT_mono caseT_zero caseT_resolved 0 (τ := 2) (by norm_num [caseT]) (by norm_num [caseT])
end
end Dsps.Props
