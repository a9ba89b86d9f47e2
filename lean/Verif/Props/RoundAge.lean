import Verif.Lemmas.RoundSed
import Verif.Props.AgeWeights
import Mathlib.Analysis.Complex.ExponentialBounds

/-! C112: floating-point accuracy of the age weights and of the mass at the time of observation, from the inputs on. -/
namespace Dsps.Props
open Jnp Fl Dsps.Lemmas Dsps.Constants Spec

variable {A : Arith} {v : ℝ} {n m : ℕ}

lemma within_trans {k l : ℕ} {x'' x' x : ℝ} (h : Within A k x'' x') (h' : Within A l x' x) : Within A (k + l) x'' x := by
  have hk := qp_pos A k
  have hl := qp_pos A l
  rw [Within, pow_add]
  constructor
  · calc x * ((1 - A.u) ^ k * (1 - A.u) ^ l) = x * (1 - A.u) ^ l * (1 - A.u) ^ k := by ring
      _ ≤ x' * (1 - A.u) ^ k := mul_le_mul_of_nonneg_right h'.1 hk.le
      _ ≤ x'' := h.1
  · calc x'' * ((1 - A.u) ^ k * (1 - A.u) ^ l) = x'' * (1 - A.u) ^ k * (1 - A.u) ^ l := by ring
      _ ≤ x' * (1 - A.u) ^ l := mul_le_mul_of_nonneg_right h.2 hl.le
      _ ≤ x := h'.2

lemma cumul_within {k : ℕ} {t s s' : Fin (n + 1) → ℝ} (ht : Monotone t) (ht0 : 0.001 < t 0) (hs : ∀ i, 0 ≤ s i)
    (h : ∀ i, Within A k (s' i) (s i)) (i : Fin (n + 1)) :
    Within A k (Utils.cumulative_mstar_formed t s' i) (Utils.cumulative_mstar_formed t s i) := by
  have area : ∀ {a b y1 y1' y2 y2' : ℝ}, a ≤ b → Within A k y1' y1 → Within A k y2' y2 →
      Within A k (1e9 * trapezoidArea a b y1' y2') (1e9 * trapezoidArea a b y1 y2) := by
    intro a b y1 y1' y2 y2' hab h1 h2
    have h3 := Within'.add h1 h2
    have hc : 0 ≤ 1e9 * (b - a) / 2 := div_nonneg (mul_nonneg (by norm_num) (sub_nonneg.2 hab)) (by norm_num)
    have e : ∀ p q, 1e9 * trapezoidArea a b p q = 1e9 * (b - a) / 2 * (p + q) := fun p q => by unfold trapezoidArea; ring
    rw [e, e]
    have m1 := mul_le_mul_of_nonneg_left h3.1 hc
    have m2 := mul_le_mul_of_nonneg_left h3.2 hc
    exact ⟨by linarith, by linarith⟩
  obtain ⟨f0, fS⟩ := C12_mstar_formula t s
  obtain ⟨f0', fS'⟩ := C12_mstar_formula t s'
  induction i using Fin.induction with
  | zero =>
    rw [f0, f0']
    exact area ht0.le (Within'.mono (by norm_num) (Within'.refl (by norm_num)) (Nat.zero_le k)) (h 0)
  | succ j ih =>
    rw [fS, fS']
    exact Within'.add ih (area (ht (Fin.castSucc_lt_succ (i := j)).le) (h _) (h _))

/-- **Conditions** under which the error is bounded.
* `arith`: the machine has at least one bit and the library functions some accuracy `v`;
* `times`: the table of times increases, from at least 0.01 Gyr (`T_TABLE_MIN`) to at most 1000 Gyr, with gaps (in dex) that
  exceed JAX's interpolation threshold by more than the error of the logarithms;
* `slope`, `size`: the mass-growth history has slope at most `L` in the log-log plane, and masses between `10^-S` and `10^S`. -/
structure Conditioned [Dtype] (A : Arith) (v : ℝ) (t s : Fin (n + 2) → ℝ) (sfr_min L S : ℝ) : Prop where
  u_half : A.u ≤ 1 / 2
  v_nonneg : 0 ≤ v
  increasing : StrictMono t
  start : 0.01 ≤ t 0
  finish : t (Fin.last (n + 1)) ≤ 1000
  gaps : ∀ i : Fin (n + 1), Dtype.interpEps < (Real.logb 10 (t i.succ) - Real.logb 10 (t i.castSucc) - 6 * v) * (1 - A.u)
  floor : 0 < sfr_min
  slope : ∀ i : Fin (n + 1),
    Real.logb 10 (massFormed t s sfr_min (t i.succ)) - Real.logb 10 (massFormed t s sfr_min (t i.castSucc)) ≤
      L * (Real.logb 10 (t i.succ) - Real.logb 10 (t i.castSucc))
  one_le : 1 ≤ S
  size : ∀ i, |Real.logb 10 (massFormed t s sfr_min (t i))| ≤ S

/-- error (dex) of the computed table of log masses -/
noncomputable def tableErr (A : Arith) (v : ℝ) (n : ℕ) (S : ℝ) : ℝ :=
  (n + 10) * gdex A + v * (S + (n + 10) * gdex A)

/-- error (dex) of the computed log mass at a given time -/
noncomputable def logMassErr (A : Arith) (v : ℝ) (n : ℕ) (L S : ℝ) : ℝ :=
  tableErr A v n S + 10 * L * v + ((1 / (1 - A.u)) ^ 6 - 1) * (2 * (S + tableErr A v n S))

/-- error of the computed mass at a bin edge: `M` total mass, `K` largest growth rate (mass per Gyr), ages between `10^-B` and
`10^B` Gyr -/
noncomputable def massErr (A : Arith) (v : ℝ) (n : ℕ) (L S K B t_obs M : ℝ) : ℝ :=
  expErr v (logMassErr A v n L S) * M + K * birthErr A v (((1 / (1 - A.u)) ^ 8 - 1) * (5 / 2 * B)) t_obs

section
variable [Dtype] {t s : Fin (n + 2) → ℝ} {sfr_min L S : ℝ}

namespace Conditioned

lemma start' (h : Conditioned A v t s sfr_min L S) : 0.001 < t 0 := by have := h.start; norm_num at this ⊢; linarith

lemma resolved (h : Conditioned A v t s sfr_min L S) : Resolved fun i => log10 (t i) := by
  intro i
  have h1 := h.gaps i
  have h2 := h.v_nonneg
  have h3 := Dtype.interpEps_nonneg
  have h4 := q_pos A
  have h5 := q_le A
  show Dtype.interpEps < Real.logb 10 (t i.succ) - Real.logb 10 (t i.castSucc)
  have h6 : 0 < Real.logb 10 (t i.succ) - Real.logb 10 (t i.castSucc) - 6 * v := by
    by_contra hc; push Not at hc; nlinarith
  nlinarith

lemma pos (h : Conditioned A v t s sfr_min L S) (i : Fin (n + 2)) : 0 < t i := t_pos h.increasing h.start' i

lemma table (h : Conditioned A v t s sfr_min L S) (i : Fin (n + 2)) :
    log10 (massFormed t s sfr_min (t i)) = StellarAgeWeights.calc_logsm_table_from_sfh_table t s sfr_min i := by
  rw [massFormed_table h.increasing h.start' h.floor h.resolved, calc_logsm_eq]

lemma slope' (h : Conditioned A v t s sfr_min L S) (i : Fin (n + 1)) :
    |StellarAgeWeights.calc_logsm_table_from_sfh_table t s sfr_min i.succ
      - StellarAgeWeights.calc_logsm_table_from_sfh_table t s sfr_min i.castSucc| ≤ L * (log10 (t i.succ) - log10 (t i.castSucc)) := by
  rw [abs_of_nonneg (sub_nonneg.2 (logsm_strictMono h.increasing h.start' h.floor Fin.castSucc_lt_succ).le), ← h.table, ← h.table]
  exact h.slope i

lemma L_nonneg (h : Conditioned A v t s sfr_min L S) : 0 ≤ L := by
  have h1 := (abs_nonneg _).trans (h.slope' 0)
  have h2 : 0 < log10 (t (Fin.succ 0)) - log10 (t (Fin.castSucc 0)) :=
    sub_pos.2 (log10_lt (h.pos _) (h.increasing Fin.castSucc_lt_succ))
  by_contra hc; push Not at hc; nlinarith

lemma log_time (h : Conditioned A v t s sfr_min L S) (i : Fin (n + 2)) : |log10 (t i)| ≤ 3 := by
  have e1 : log10 (0.001:ℝ) = -3 := by
    unfold log10; rw [show (0.001:ℝ) = 10 ^ (-3:ℝ) by rw [Real.rpow_neg (by norm_num)]; norm_num]; exact Real.logb_rpow (by norm_num) (by norm_num)
  have e2 : log10 (1000:ℝ) = 3 := by
    unfold log10; rw [show (1000:ℝ) = 10 ^ (3:ℝ) by norm_num]; exact Real.logb_rpow (by norm_num) (by norm_num)
  rw [abs_le, ← e1, ← e2]
  exact ⟨log10_le (by norm_num) (h.start'.le.trans (h.increasing.monotone (Fin.zero_le i))),
    log10_le (h.pos i) ((h.increasing.monotone (Fin.le_last i)).trans h.finish)⟩

end Conditioned

lemma tableErr_nonneg (hv : 0 ≤ v) (hS : 0 ≤ S) : 0 ≤ tableErr A v n S := by
  unfold tableErr; have := gdex_nonneg A; positivity

/-- the computed table of log masses -/
lemma table_err (h : Conditioned A v t s sfr_min L S) {out : Fin (n + 2) → ℝ}
    (ho : out ∈ Rounded.calc_logsm_table_from_sfh_table A v t s sfr_min) (i : Fin (n + 2)) :
    |out i - StellarAgeWeights.calc_logsm_table_from_sfh_table t s sfr_min i| ≤ tableErr A v n S := by
  obtain ⟨fl, hfl, M, hM, ho⟩ := ho
  have wfl := Within'.rndR h.floor.le hfl
  have hfl0 := Within'.pos h.floor wfl
  rw [floor_eq] at hM
  have ws : ∀ j, Within A 1 (max fl (s j)) (max sfr_min (s j)) := by
    intro j
    have q1 := q_le A
    have q0 := q_pos A
    constructor
    · rw [pow_one]
      rcases le_total sfr_min (s j) with h1 | h1
      · rw [max_eq_right h1]
        refine le_trans ?_ (le_max_right _ _)
        have : 0 ≤ s j := h.floor.le.trans h1
        nlinarith
      · rw [max_eq_left h1]
        refine le_trans ?_ (le_max_left _ _)
        have := wfl.1; rwa [pow_one] at this
    · rw [pow_one]
      rcases le_total fl (s j) with h1 | h1
      · rw [max_eq_right h1]
        refine le_trans ?_ (le_max_right _ _)
        have : 0 ≤ s j := hfl0.le.trans h1
        nlinarith
      · rw [max_eq_left h1]
        refine le_trans ?_ (le_max_left _ _)
        have := wfl.2; rwa [pow_one] at this
  have w1 := C97_mstar_rounding t _ h.increasing.monotone h.start (fun j => hfl0.le.trans (le_max_left _ _)) hM i
  have w2 := cumul_within h.increasing.monotone h.start' (fun j => h.floor.le.trans (le_max_left _ _)) ws i
  have w3 := within_trans w1 w2
  have hp := (C12_mstar_pos_strictMono t (fun j => max sfr_min (s j)) h.increasing h.start' (fun j => lt_max_of_lt_left h.floor)).1 i
  have w4 := Within'.mono hp.le w3 (show (i:ℕ) + 8 + 1 ≤ n + 10 by omega)
  have l1 := log10_within hp w4
  have l2 : |out i - log10 (M i)| ≤ v * max 1 |log10 (M i)| := ho i
  have hsz := h.size i
  have htab := h.table i
  rw [calc_logsm_eq] at htab ⊢
  have htab' : Real.logb 10 (massFormed t s sfr_min (t i)) = log10 (Utils.cumulative_mstar_formed t (fun j => max sfr_min (s j)) i) := htab
  rw [htab'] at hsz
  push_cast at l1
  have hg := gdex_nonneg A
  have l3 : max 1 |log10 (M i)| ≤ S + (n + 10) * gdex A := by
    have hn : 0 ≤ ((n:ℝ) + 10) * gdex A := by positivity
    refine max_le (by linarith [h.one_le]) ?_
    have := abs_sub_abs_le_abs_sub (log10 (M i)) (log10 (Utils.cumulative_mstar_formed t (fun j => max sfr_min (s j)) i))
    linarith
  have l4 := mul_le_mul_of_nonneg_left l3 h.v_nonneg
  have := abs_sub_le (out i) (log10 (M i)) (log10 (Utils.cumulative_mstar_formed t (fun j => max sfr_min (s j)) i))
  unfold tableErr
  linarith

/-- the computed log mass at a time `c`, looked up at a machine logarithm `x` of `c` -/
lemma logMass_err (h : Conditioned A v t s sfr_min L S) {lgt lsm : Fin (n + 2) → ℝ}
    (hl : lgt ∈ vec fun i => Rounded.log10 v (t i)) (hs : lsm ∈ Rounded.calc_logsm_table_from_sfh_table A v t s sfr_min) {x c r : ℝ}
    (hc : |log10 c| ≤ 4) (hx : |x - log10 c| ≤ v * max 1 |log10 c|) (hr : r ∈ Rounded.interp A x lgt lsm) :
    |r - log10 (massFormed t s sfr_min c)| ≤ logMassErr A v n L S := by
  have hv := h.v_nonneg
  have hη : ∀ i, |lgt i - log10 (t i)| ≤ 3 * v := fun i => by
    have := hl i
    refine le_trans this ?_
    rw [mul_comm]
    exact mul_le_mul_of_nonneg_right (max_le (by norm_num) (h.log_time i)) hv
  have hφ := table_err h hs
  have hgap : ∀ i : Fin (n + 1), Dtype.interpEps < (lgt i.succ - lgt i.castSucc) * (1 - A.u) := fun i => by
    refine (h.gaps i).trans_le (mul_le_mul_of_nonneg_right ?_ (q_pos A).le)
    have h1 := (abs_le.1 (hη i.succ)).1
    have h2 := (abs_le.1 (hη i.castSucc)).2
    have e1 : log10 (t i.succ) = Real.logb 10 (t i.succ) := rfl
    have e2 : log10 (t i.castSucc) = Real.logb 10 (t i.castSucc) := rfl
    linarith
  have hr' : Resolved lgt := fun i => by
    have h1 := hgap i
    have h3 := Dtype.interpEps_nonneg
    have h4 := q_pos A
    have h5 := q_le A
    have h6 : 0 < lgt i.succ - lgt i.castSucc := by
      by_contra hc; push Not at hc; nlinarith
    nlinarith
  have hφ0 : 0 ≤ tableErr A v n S := (abs_nonneg _).trans (hφ 0)
  have hsz : ∀ i, |lsm i| ≤ S + tableErr A v n S := fun i => by
    have h1 := h.size i
    have h2 := h.table i
    rw [show Real.logb 10 (massFormed t s sfr_min (t i)) = log10 (massFormed t s sfr_min (t i)) from rfl, h2] at h1
    have := abs_sub_abs_le_abs_sub (lsm i) (StellarAgeWeights.calc_logsm_table_from_sfh_table t s sfr_min i)
    linarith [hφ i]
  have n1 := (interp_near hr'.strictMono.monotone hgap hsz hr).2
  have n2 := interp_perturb h.resolved hr' h.L_nonneg h.slope' hη hφ x
  have n3 := interp_lipschitz h.resolved h.L_nonneg h.slope' x (log10 c)
  have n4 : |x - log10 c| ≤ 4 * v := by
    refine hx.trans ?_
    rw [mul_comm]
    exact mul_le_mul_of_nonneg_right (max_le (by norm_num) hc) hv
  have n5 := mul_le_mul_of_nonneg_left n4 h.L_nonneg
  rw [massFormed_eq, log10_exp10]
  have t1 := abs_sub_le r (Jnp.interp x lgt lsm) (Jnp.interp (log10 c) (fun i => log10 (t i))
    (StellarAgeWeights.calc_logsm_table_from_sfh_table t s sfr_min))
  have t2 := abs_sub_le (Jnp.interp x lgt lsm) (Jnp.interp x (fun i => log10 (t i))
    (StellarAgeWeights.calc_logsm_table_from_sfh_table t s sfr_min)) (Jnp.interp (log10 c) (fun i => log10 (t i))
    (StellarAgeWeights.calc_logsm_table_from_sfh_table t s sfr_min))
  unfold logMassErr
  linarith

lemma massFormed_le_last (h : Conditioned A v t s sfr_min L S) {c : ℝ} (hc : 0 < c) :
    massFormed t s sfr_min c ≤ massFormed t s sfr_min (t (Fin.last (n + 1))) := by
  rcases le_total c (t (Fin.last (n + 1))) with h1 | h1
  · exact massFormed_mono h.increasing h.start' h.floor hc h1
  · exact (massFormed_after h.increasing h.start' h.resolved h1).le

lemma log10_small {c : ℝ} (h0 : 0.0001 ≤ c) (h1 : c ≤ 10000) : |log10 c| ≤ 4 := by
  have e1 : log10 (0.0001:ℝ) = -4 := by
    unfold log10; rw [show (0.0001:ℝ) = 10 ^ (-4:ℝ) by rw [Real.rpow_neg (by norm_num)]; norm_num]; exact Real.logb_rpow (by norm_num) (by norm_num)
  have e2 : log10 (10000:ℝ) = 4 := by
    unfold log10; rw [show (10000:ℝ) = 10 ^ (4:ℝ) by norm_num]; exact Real.logb_rpow (by norm_num) (by norm_num)
  rw [abs_le, ← e1, ← e2]
  exact ⟨log10_le (by norm_num) h0, log10_le (lt_of_lt_of_le (by norm_num) h0) h1⟩

/-- C112: the mass at the time of observation, with which the SED is normalised: relative error `(1+v) 10^ε - 1`, where `ε` is the error of
the computed log mass. -/
theorem C112_mstar_obs (h : Conditioned A v t s sfr_min L S) {t_obs : ℝ} (h0 : 0.001 ≤ t_obs) (h1 : t_obs ≤ 1000) {M : ℝ}
    (hM : M ∈ Rounded.mstar_obs A v t s t_obs sfr_min) :
    |M - SspWeights.mstar_obs t s t_obs sfr_min| ≤
      ((1 + v) * (10:ℝ) ^ logMassErr A v n L S - 1) * SspWeights.mstar_obs t s t_obs sfr_min := by
  obtain ⟨x, hx, lgt, hl, lsm, hs, r, hr, hM⟩ := hM
  have hc : |log10 t_obs| ≤ 4 := log10_small (by norm_num at h0 ⊢; linarith) (by linarith)
  have e := logMass_err h hl hs hc hx hr
  have := exp10_err h.v_nonneg e hM
  have e2 : SspWeights.mstar_obs t s t_obs sfr_min = Jnp.exp10 (log10 (massFormed t s sfr_min t_obs)) := by
    rw [exp10_log10 (massFormed_pos _), massFormed_eq]; rfl
  rw [e2]; exact this

/-- the masses at the edges of the age bins, as computed -/
lemma edge_err (h : Conditioned A v t s sfr_min L S) {K B t_obs : ℝ} {a : Fin (m + 3) → ℝ} (hB : ∀ i, |a i| ≤ B)
    (hK : ∀ x y, 0 < x → 0 < y → |massFormed t s sfr_min x - massFormed t s sfr_min y| ≤ K * |x - y|)
    (h0 : 0.001 ≤ t_obs) (h1 : t_obs ≤ 1000) (hsmall : expErr v (((1 / (1 - A.u)) ^ 8 - 1) * (5 / 2 * B)) ≤ 1 / 2)
    {lgt lsm : Fin (n + 2) → ℝ} (hl : lgt ∈ vec fun i => Rounded.log10 v (t i))
    (hs : lsm ∈ Rounded.calc_logsm_table_from_sfh_table A v t s sfr_min) {e : Fin (m + 4) → ℝ}
    (he : e ∈ Rounded.get_lg_age_bin_edges A a) {i : Fin (m + 4)} {x r M : ℝ} (hx : x ∈ Rounded.get_lgt_birth A v t_obs (e i))
    (hr : r ∈ Rounded.interp A x lgt lsm) (hM : M ∈ Rounded.exp10 v r) :
    |M - massFormed t s sfr_min (birthTime t_obs (StellarAgeWeights.get_lg_age_bin_edges a i))| ≤
      massErr A v n L S K B t_obs (massFormed t s sfr_min (t (Fin.last (n + 1)))) := by
  have hp : 0 < t_obs := lt_of_lt_of_le (by norm_num) h0
  obtain ⟨c, c0, c1, c2, c3⟩ := birth_err h.v_nonneg hp (age_edges_near hB he i).2 hsmall hx
  have hu := h.u_half
  have hu0 := A.u_nonneg
  have c0' : 0.0001 ≤ c := le_trans (by norm_num; linarith) c0
  have c1' : c ≤ 10000 := c1.trans (max_le (by norm_num; linarith) (by nlinarith))
  have hc0 : 0 < c := lt_of_lt_of_le (by norm_num) c0'
  have e1 := logMass_err h hl hs (log10_small c0' c1') c3 hr
  have e2 := exp10_err h.v_nonneg e1 hM
  rw [exp10_log10 (massFormed_pos _)] at e2
  have e3 := hK c _ hc0 (birthTime_pos t_obs (StellarAgeWeights.get_lg_age_bin_edges a i))
  have hK0 : 0 ≤ K := by
    have := (abs_nonneg _).trans (hK 1 2 (by norm_num) (by norm_num))
    norm_num at this; exact this
  have e4 := mul_le_mul_of_nonneg_left c2 hK0
  have hE : 0 ≤ expErr v (logMassErr A v n L S) := expErr_nonneg h.v_nonneg ((abs_nonneg _).trans e1)
  have e5 := mul_le_mul_of_nonneg_left (massFormed_le_last h hc0) hE
  have := abs_sub_le M (massFormed t s sfr_min c) (massFormed t s sfr_min (birthTime t_obs (StellarAgeWeights.get_lg_age_bin_edges a i)))
  unfold massErr
  linarith

/-- C112: age weights.  Let `μ` bound the error of the computed masses at the bin edges (`massErr`), `Δ` be the mass in the
age grid, and suppose the error of the computed total is below `Δ`.  Then every computed weight is within `weightErr` of the exact one,
whatever the order of the additions (in chains of at most `d`). -/
theorem C112_age_weights (h : Conditioned A v t s sfr_min L S) {K B t_obs : ℝ} {a : Fin (m + 3) → ℝ} (hB : ∀ i, |a i| ≤ B)
    (hmono : Monotone (StellarAgeWeights.get_lg_age_bin_edges a))
    (hK : ∀ x y, 0 < x → 0 < y → |massFormed t s sfr_min x - massFormed t s sfr_min y| ≤ K * |x - y|)
    (h0 : 0.001 ≤ t_obs) (h1 : t_obs ≤ 1000) (hsmall : expErr v (((1 / (1 - A.u)) ^ 8 - 1) * (5 / 2 * B)) ≤ 1 / 2) {μ Δ : ℝ}
    (hμ : massErr A v n L S K B t_obs (massFormed t s sfr_min (t (Fin.last (n + 1)))) ≤ μ)
    (hΔ : massFormed t s sfr_min (birthTime t_obs (StellarAgeWeights.get_lg_age_bin_edges a 0))
      - massFormed t s sfr_min (birthTime t_obs (StellarAgeWeights.get_lg_age_bin_edges a (Fin.last (m + 3)))) = Δ)
    {d : ℕ} (hd : totalErr A d (m + 3) μ Δ < Δ) {w : Fin (m + 3) → ℝ}
    (hw : w ∈ Rounded.calc_age_weights_from_sfh_table A v d t s a t_obs sfr_min) (i : Fin (m + 3)) :
    |w i - StellarAgeWeights.calc_age_weights_from_sfh_table t s a t_obs sfr_min i| ≤ weightErr A d (m + 3) μ Δ := by
  obtain ⟨lsm, hs, lgt, hl, e, he, x, hx, r, hr, M, hM, df, hdf, hw⟩ := hw
  have key : ∀ i, |M i - massFormed t s sfr_min (birthTime t_obs (StellarAgeWeights.get_lg_age_bin_edges a i))| ≤ μ := fun i =>
    (edge_err h hB hK h0 h1 hsmall hl hs he (hx i) (hr i) (hM i)).trans hμ
  have anti : Antitone fun i => massFormed t s sfr_min (birthTime t_obs (StellarAgeWeights.get_lg_age_bin_edges a i)) := fun i j hij =>
    massFormed_mono h.increasing h.start' h.floor (birthTime_pos _ _) (birthTime_anti _ (hmono hij))
  rw [age_weights_eq]
  have := weights_err anti key hdf hw (by rw [hΔ]; exact hd) i
  rw [hΔ] at this ⊢
  exact this

/-- C112: the mass-growth history of the model is Lipschitz in time, with constant `L M / t₀` (`M` total mass, `t₀` first tabulated time):
the `K` of `C112_age_weights` exists for every conditioned table. -/
theorem C112_growth_rate (h : Conditioned A v t s sfr_min L S) (hL : 1 ≤ L) {x y : ℝ} (hx : 0 < x) (hy : 0 < y) :
    |massFormed t s sfr_min x - massFormed t s sfr_min y| ≤
      L * massFormed t s sfr_min (t (Fin.last (n + 1))) / t 0 * |x - y| := by
  have h0 := h.pos 0
  have hMpos : 0 < massFormed t s sfr_min (t (Fin.last (n + 1))) := massFormed_pos _
  have hL0 : 0 < L := by linarith
  have key : ∀ x y, 0 < x → x ≤ y → massFormed t s sfr_min y - massFormed t s sfr_min x ≤
      L * massFormed t s sfr_min (t (Fin.last (n + 1))) / t 0 * (y - x) := by
    intro x y hx hxy
    have hy : 0 < y := hx.trans_le hxy
    rcases le_total y (t 0) with hc | hc
    · rw [massFormed_before h.increasing h.start' hy hc, massFormed_before h.increasing h.start' hx (hxy.trans hc), sub_self]
      have : 0 ≤ y - x := sub_nonneg.2 hxy
      positivity
    have h1 := interp_lipschitz h.resolved h.L_nonneg h.slope' (log10 y) (log10 x)
    have hlog : 0 ≤ log10 y - log10 x := sub_nonneg.2 (log10_le hx hxy)
    rw [abs_of_nonneg hlog] at h1
    have h2 := (abs_le.1 h1).2
    -- m(x) ≥ m(y) (x/y)^L
    have h3 : massFormed t s sfr_min y * (x / y) ^ L ≤ massFormed t s sfr_min x := by
      have e : (x / y) ^ L = Jnp.exp10 (-(L * (log10 y - log10 x))) := by
        have : Jnp.exp10 (-(L * (log10 y - log10 x))) = (Jnp.exp10 (log10 (x / y))) ^ L := by
          unfold Jnp.exp10
          rw [← Real.rpow_mul (by norm_num)]
          congr 1
          unfold log10
          rw [Real.logb_div hx.ne' hy.ne']; ring
        rw [this, exp10_log10 (div_pos hx hy)]
      rw [e, massFormed_eq, massFormed_eq, ← exp10_add]
      exact exp10_strictMono.monotone (by linarith)
    have h4 := one_add_mul_self_le_rpow_one_add (s := x / y - 1) (by have := div_pos hx hy; linarith) hL
    rw [add_sub_cancel] at h4
    have hm := massFormed_le_last h hy
    have hmp : 0 < massFormed t s sfr_min y := massFormed_pos _
    have h5 := mul_le_mul_of_nonneg_left h4 hmp.le
    have e1 : x / y - 1 = -((y - x) / y) := by field_simp; ring
    rw [e1] at h5
    have h6 : massFormed t s sfr_min y - massFormed t s sfr_min x ≤ massFormed t s sfr_min y * (L * ((y - x) / y)) := by linarith
    refine h6.trans ?_
    have hd : (y - x) / y ≤ (y - x) / t 0 := div_le_div_of_nonneg_left (sub_nonneg.2 hxy) h0 hc
    have hd0 : 0 ≤ (y - x) / y := div_nonneg (sub_nonneg.2 hxy) hy.le
    calc massFormed t s sfr_min y * (L * ((y - x) / y))
        ≤ massFormed t s sfr_min (t (Fin.last (n + 1))) * (L * ((y - x) / t 0)) :=
          mul_le_mul hm (mul_le_mul_of_nonneg_left hd hL0.le) (by positivity) hMpos.le
      _ = _ := by ring
  rcases le_total x y with hc | hc
  · rw [abs_sub_comm, abs_sub_comm x y, abs_of_nonneg (sub_nonneg.2 hc),
      abs_of_nonneg (sub_nonneg.2 (massFormed_mono h.increasing h.start' h.floor hx hc))]
    exact key x y hx hc
  · rw [abs_of_nonneg (sub_nonneg.2 hc), abs_of_nonneg (sub_nonneg.2 (massFormed_mono h.increasing h.start' h.floor hy hc))]
    exact key y x hy hc

end

/-! ### double precision, numbers -/

lemma G_sub_one_le {A : Arith} {k : ℕ} (h : (k:ℝ) * A.u ≤ 1 / 2) : (1 / (1 - A.u)) ^ k - 1 ≤ 2 * (k * A.u) := by
  have hu := A.u_nonneg
  have h1 : 1 - k * A.u ≤ (1 - A.u) ^ k := by
    have := one_add_mul_le_pow (a := -A.u) (by linarith [A.u_lt_one]) k
    rw [← sub_eq_add_neg] at this; linarith
  have hk0 : 0 ≤ k * A.u := by positivity
  rw [one_div, inv_pow, sub_le_iff_le_add]
  calc ((1 - A.u) ^ k)⁻¹ ≤ (1 - k * A.u)⁻¹ := inv_anti₀ (by linarith) h1
    _ ≤ 2 * (k * A.u) + 1 := by
      rw [inv_le_iff_one_le_mul₀ (by linarith)]; nlinarith

lemma gdex_le {A : Arith} (h : A.u ≤ 1 / 2) : gdex A ≤ 2 * A.u := by
  have h1 := G_sub_one_le (A := A) (k := 1) (by simpa using h)
  rw [pow_one, Nat.cast_one, one_mul] at h1
  have hl : 1 ≤ Real.log 10 := by
    rw [Real.le_log_iff_exp_le (by norm_num)]
    have := Real.exp_one_lt_three; linarith
  have h2 := Real.log_le_sub_one_of_pos (lt_of_lt_of_le one_pos (G_ge A))
  have h0 := Real.log_nonneg (G_ge A)
  unfold gdex log10 Real.logb
  refine (div_le_self h0 hl).trans (by linarith)

lemma exp10_small {ε : ℝ} (h0 : 0 ≤ ε) (h : ε ≤ 1) : Jnp.exp10 ε ≤ 1 + 9 * ε := by
  have := rpow_one_add_le_one_add_mul_self (s := 9) (by norm_num) h0 h
  rw [show (1:ℝ) + 9 = 10 by norm_num] at this
  unfold Jnp.exp10; linarith

lemma expErr_le {v ε : ℝ} (hv : 0 ≤ v) (hv1 : v ≤ 1 / 10) (h0 : 0 ≤ ε) (h : ε ≤ 1) : expErr v ε ≤ 10 * ε + v := by
  unfold expErr
  have := mul_le_mul_of_nonneg_left (exp10_small h0 h) (show 0 ≤ 1 + v by linarith)
  nlinarith

section
variable [Dtype] {t s : Fin (n + 2) → ℝ} {sfr_min L S : ℝ}

lemma logMassErr_float64 (hu : A.u ≤ 2 ^ (-53:ℤ)) (hv0 : 0 ≤ v) (hv : v ≤ 2 ^ (-50:ℤ)) (hn : n ≤ 1000) (hL0 : 0 ≤ L) (hL : L ≤ 100)
    (hS0 : 1 ≤ S) (hS : S ≤ 20) : 0 ≤ logMassErr A v n L S ∧ logMassErr A v n L S ≤ 1.3e-12 := by
  have hu' : A.u ≤ 1.2e-16 := hu.trans (by norm_num)
  have hv' : v ≤ 9e-16 := hv.trans (by norm_num)
  have hu0 := A.u_nonneg
  have hn' : (n:ℝ) ≤ 1000 := by exact_mod_cast hn
  have hg := gdex_le (A := A) (by norm_num at hu' ⊢; linarith)
  have hg0 := gdex_nonneg A
  have h6 := G_sub_one_le (A := A) (k := 6) (by norm_num at hu' ⊢; linarith)
  have h60 := G_pow_nonneg A 6
  have hng : ((n:ℝ) + 10) * gdex A ≤ 2.5e-13 := by
    have := mul_le_mul (show (n:ℝ) + 10 ≤ 1010 by linarith) hg hg0 (by norm_num)
    norm_num at hu' ⊢; linarith
  have hng0 : 0 ≤ ((n:ℝ) + 10) * gdex A := by positivity
  have hte : tableErr A v n S ≤ 3e-13 := by
    unfold tableErr
    have := mul_le_mul hv' (show S + ((n:ℝ) + 10) * gdex A ≤ 21 by norm_num at hng ⊢; linarith) (by linarith) (by norm_num)
    norm_num at hng this ⊢; linarith
  have hte0 := tableErr_nonneg (A := A) (n := n) hv0 (show 0 ≤ S by linarith)
  push_cast at h6
  constructor
  · unfold logMassErr; positivity
  · unfold logMassErr
    have h1 := mul_le_mul (show 10 * L ≤ 1000 by linarith) hv' hv0 (by norm_num)
    have h2 := mul_le_mul (h6.trans (show 2 * (6 * A.u) ≤ 1.44e-15 by norm_num at hu' ⊢; linarith))
      (show 2 * (S + tableErr A v n S) ≤ 41 by norm_num at hte ⊢; linarith) (by linarith) (by norm_num)
    norm_num at hte h1 h2 ⊢; linarith

/-- C112: numbers for double precision (unit roundoff `2^-53`; library functions accurate to `2^-50`): for tables of up to 1002 times, a
log-log slope of up to 100 and masses between `10^-20` and `10^20`, the mass at the time of observation is accurate to 1.4e-11. -/
theorem C112_mstar_obs_float64 (h : Conditioned A v t s sfr_min L S) (hu : A.u ≤ 2 ^ (-53:ℤ)) (hv : v ≤ 2 ^ (-50:ℤ)) (hn : n ≤ 1000)
    (hL : L ≤ 100) (hS : S ≤ 20) {t_obs : ℝ} (h0 : 0.001 ≤ t_obs) (h1 : t_obs ≤ 1000) {M : ℝ}
    (hM : M ∈ Rounded.mstar_obs A v t s t_obs sfr_min) :
    |M - SspWeights.mstar_obs t s t_obs sfr_min| ≤ 1.4e-11 * SspWeights.mstar_obs t s t_obs sfr_min := by
  refine (C112_mstar_obs h h0 h1 hM).trans (mul_le_mul_of_nonneg_right ?_ (exp10_pos _).le)
  obtain ⟨e0, e1⟩ := logMassErr_float64 hu h.v_nonneg hv hn h.L_nonneg hL h.one_le hS
  have hv' : v ≤ 9e-16 := hv.trans (by norm_num)
  have := expErr_le h.v_nonneg (by norm_num at hv' ⊢; linarith) e0 (by norm_num at e1 ⊢; linarith)
  have e2 : expErr v (logMassErr A v n L S) ≤ 1.4e-11 := by norm_num at this hv' e1 ⊢; linarith
  exact e2

lemma massErr_float64 (hu : A.u ≤ 2 ^ (-53:ℤ)) (hv0 : 0 ≤ v) (hv : v ≤ 2 ^ (-50:ℤ)) (hn : n ≤ 1000) (hL0 : 0 ≤ L) (hL : L ≤ 100)
    (hS0 : 1 ≤ S) (hS : S ≤ 20) {K M t_obs : ℝ} (hK0 : 0 ≤ K) (hM : 0 ≤ M) (h0 : 0.001 ≤ t_obs) (hK : K * t_obs ≤ 1000 * M) :
    expErr v (((1 / (1 - A.u)) ^ 8 - 1) * (5 / 2 * 6)) ≤ 1 / 2 ∧ massErr A v n L S K 6 t_obs M ≤ 7.5e-10 * M := by
  have hu' : A.u ≤ 1.2e-16 := hu.trans (by norm_num)
  have hv' : v ≤ 9e-16 := hv.trans (by norm_num)
  have hu0 := A.u_nonneg
  have h8 := G_sub_one_le (A := A) (k := 8) (by norm_num at hu' ⊢; linarith)
  have h80 := G_pow_nonneg A 8
  push_cast at h8
  obtain ⟨e0, e1⟩ := logMassErr_float64 (A := A) (n := n) hu hv0 hv hn hL0 hL hS0 hS
  have hδ0 : 0 ≤ ((1 / (1 - A.u)) ^ 8 - 1) * (5 / 2 * 6) := by linarith
  have hδ : ((1 / (1 - A.u)) ^ 8 - 1) * (5 / 2 * 6) ≤ 2.9e-14 :=
    (mul_le_mul_of_nonneg_right h8 (by norm_num)).trans (by norm_num at hu' ⊢; linarith)
  have hρ := expErr_le hv0 (by norm_num at hv' ⊢; linarith) hδ0 (by norm_num at hδ ⊢; linarith)
  have hρ' : expErr v (((1 / (1 - A.u)) ^ 8 - 1) * (5 / 2 * 6)) ≤ 3e-13 := by norm_num at hρ hv' hδ ⊢; linarith
  have hρ0 := expErr_nonneg hv0 hδ0
  have hE := expErr_le hv0 (by norm_num at hv' ⊢; linarith) e0 (by norm_num at e1 ⊢; linarith)
  have hE' : expErr v (logMassErr A v n L S) ≤ 1.4e-11 := by norm_num at hE hv' e1 ⊢; linarith
  refine ⟨by norm_num at hρ' ⊢; linarith, ?_⟩
  have hb : birthErr A v (((1 / (1 - A.u)) ^ 8 - 1) * (5 / 2 * 6)) t_obs ≤ 7e-13 * t_obs := by
    unfold birthErr
    generalize expErr v (((1 / (1 - A.u)) ^ 8 - 1) * (5 / 2 * 6)) = ρ at hρ' hρ0
    have h1 := mul_le_mul (show 1 + A.u ≤ 1.1 by norm_num at hu' ⊢; linarith) hρ' hρ0 (by norm_num)
    have h2 : (2 * (1 + A.u) * ρ + A.u + A.u) * t_obs ≤ 7e-13 * t_obs :=
      mul_le_mul_of_nonneg_right (by norm_num at h1 hu' ⊢; linarith) (by norm_num at h0; linarith)
    have h3 := mul_le_mul_of_nonneg_left h0 hu0
    linarith
  unfold massErr
  have h1 := mul_le_mul_of_nonneg_right hE' hM
  have h2 := mul_le_mul_of_nonneg_left hb hK0
  norm_num at h1 h2 ⊢; linarith

lemma weightErr_float64 (hu : A.u ≤ 2 ^ (-53:ℤ)) {d N : ℕ} (hd : d ≤ 1000) (hN : N ≤ 1000) {μ Δ : ℝ} (hμ0 : 0 ≤ μ)
    (hΔ : 0 < Δ) (hμ : μ ≤ 7.5e-9 * Δ) : totalErr A d N μ Δ < Δ ∧ weightErr A d N μ Δ ≤ 3.1e-8 := by
  have hu' : A.u ≤ 1.2e-16 := hu.trans (by norm_num)
  have hu0 := A.u_nonneg
  have hd' : (d:ℝ) ≤ 1000 := by exact_mod_cast hd
  have hN' : (N:ℝ) ≤ 1000 := by exact_mod_cast hN
  have hN0 : (0:ℝ) ≤ N := Nat.cast_nonneg N
  have hdu : ((d + 1 : ℕ):ℝ) * A.u ≤ 1.3e-13 := by
    push_cast
    have := mul_le_mul (show (d:ℝ) + 1 ≤ 1001 by linarith) hu' hu0 (by norm_num)
    norm_num at this ⊢; linarith
  have hG := G_sub_one_le (A := A) (k := d + 1) (by norm_num at hdu ⊢; linarith)
  have hG0 := G_pow_nonneg A (d + 1)
  have hNμ : 2 * N * μ ≤ Δ := by
    have := mul_le_mul hN' hμ hμ0 (by norm_num)
    norm_num at this ⊢; linarith
  have hNμ0 : 0 ≤ 2 * N * μ := by positivity
  have ht : totalErr A d N μ Δ ≤ 1.51e-8 * Δ := by
    unfold totalErr
    have := mul_le_mul (show (1 / (1 - A.u)) ^ (d + 1) - 1 ≤ 3e-13 by norm_num at hG hdu ⊢; linarith)
      (show Δ + 2 * N * μ ≤ 2 * Δ by linarith) (by linarith) (by norm_num)
    norm_num at this hμ ⊢; linarith
  refine ⟨by norm_num at ht ⊢; linarith, ?_⟩
  unfold weightErr
  generalize totalErr A d N μ Δ = T at ht
  have hden : 0 < Δ - T := by norm_num at ht; linarith
  have hq : (2 * (1 + A.u) * μ + A.u * Δ + T) / (Δ - T) ≤ 3.05e-8 := by
    rw [div_le_iff₀ hden]
    have h1 := mul_le_mul_of_nonneg_right hu' hΔ.le
    have h2 := mul_le_mul (show 1 + A.u ≤ 1.0001 by norm_num at hu' ⊢; linarith) hμ hμ0 (by norm_num)
    norm_num at h1 h2 ht ⊢; linarith
  have := mul_le_mul_of_nonneg_left hq (show 0 ≤ 1 + A.u by linarith)
  norm_num at this hu' ⊢; linarith

/-- C112: numbers for double precision: for tables of up to 1002 times, up to 1000 SSP ages between `10^-6` and `10^6` Gyr, a log-log
slope of up to 100, masses between `10^-20` and `10^20`, a growth rate `K` of up to `1000 M / t_obs`, and at least a tenth of the mass in the
age grid, every age weight is accurate to 3.1e-8. -/
theorem C112_age_weights_float64 (h : Conditioned A v t s sfr_min L S) (hu : A.u ≤ 2 ^ (-53:ℤ)) (hv : v ≤ 2 ^ (-50:ℤ)) (hn : n ≤ 1000)
    (hm : m + 3 ≤ 1000) (hL : L ≤ 100) (hS : S ≤ 20) {K t_obs : ℝ} {a : Fin (m + 3) → ℝ} (hB : ∀ i, |a i| ≤ 6)
    (hmono : Monotone (StellarAgeWeights.get_lg_age_bin_edges a))
    (hK : ∀ x y, 0 < x → 0 < y → |massFormed t s sfr_min x - massFormed t s sfr_min y| ≤ K * |x - y|)
    (hKM : K * t_obs ≤ 1000 * massFormed t s sfr_min (t (Fin.last (n + 1))))
    (h0 : 0.001 ≤ t_obs) (h1 : t_obs ≤ 1000)
    (hΔ : massFormed t s sfr_min (t (Fin.last (n + 1))) ≤
      10 * (massFormed t s sfr_min (birthTime t_obs (StellarAgeWeights.get_lg_age_bin_edges a 0))
        - massFormed t s sfr_min (birthTime t_obs (StellarAgeWeights.get_lg_age_bin_edges a (Fin.last (m + 3))))))
    {d : ℕ} (hd : d ≤ 1000) {w : Fin (m + 3) → ℝ}
    (hw : w ∈ Rounded.calc_age_weights_from_sfh_table A v d t s a t_obs sfr_min) (i : Fin (m + 3)) :
    |w i - StellarAgeWeights.calc_age_weights_from_sfh_table t s a t_obs sfr_min i| ≤ 3.1e-8 := by
  have hMpos : 0 < massFormed t s sfr_min (t (Fin.last (n + 1))) := massFormed_pos _
  have hK0 : 0 ≤ K := by
    have := (abs_nonneg _).trans (hK 1 2 (by norm_num) (by norm_num))
    norm_num at this; exact this
  obtain ⟨hs, hμ⟩ := massErr_float64 (A := A) (n := n) hu h.v_nonneg hv hn h.L_nonneg hL h.one_le hS hK0 hMpos.le h0 hKM
  have hμ0 : 0 ≤ 7.5e-10 * massFormed t s sfr_min (t (Fin.last (n + 1))) := by positivity
  set Δ := massFormed t s sfr_min (birthTime t_obs (StellarAgeWeights.get_lg_age_bin_edges a 0))
        - massFormed t s sfr_min (birthTime t_obs (StellarAgeWeights.get_lg_age_bin_edges a (Fin.last (m + 3)))) with hΔe
  obtain ⟨w1, w2⟩ := weightErr_float64 (A := A) (Δ := Δ) hu hd hm hμ0 (by linarith) (by norm_num at hΔ ⊢; linarith)
  exact (C112_age_weights h hB hmono hK h0 h1 hs hμ rfl w1 hw i).trans w2

end

/-! ### the hypotheses are met -/

lemma interp_nonempty [Dtype] (hA : ∀ x, (A.rnd x).Nonempty) (x : ℝ) (xp fp : Fin (n + 2) → ℝ) : (Rounded.interp A x xp fp).Nonempty := by
  by_cases h1 : x > last xp
  · exact ⟨_, Or.inl ⟨h1, rfl⟩⟩
  by_cases h2 : x < xp 0
  · exact ⟨_, Or.inr (Or.inl ⟨h1, h2, rfl⟩)⟩
  obtain ⟨o, ho⟩ := interp0_nonempty hA x xp fp
  rcases ho with ⟨h, _⟩ | ⟨_, h, _⟩ | ⟨_, _, ho⟩
  · exact absurd h h1
  · exact absurd h h2
  · exact ⟨o, Or.inr (Or.inr ⟨h1, h2, ho⟩)⟩

lemma log10_nonempty (hv : 0 ≤ v) (x : ℝ) : (Rounded.log10 v x).Nonempty := ⟨Jnp.log10 x, by
  show |Jnp.log10 x - Jnp.log10 x| ≤ _
  rw [sub_self, abs_zero]; positivity⟩

lemma exp10_nonempty (hv : 0 ≤ v) (x : ℝ) : (Rounded.exp10 v x).Nonempty := ⟨Jnp.exp10 x, by
  show |Jnp.exp10 x - Jnp.exp10 x| ≤ _
  rw [sub_self, abs_zero]; exact mul_nonneg hv (exp10_pos x).le⟩

lemma dt_nonempty (hA : ∀ x, (A.rnd x).Nonempty) (t : Fin (n + 3) → ℝ) : (Rounded.jax_get_dt_array A t).Nonempty :=
  ⟨_, _, (vec_nonempty fun _ => hA _).some_mem, _, (vec_nonempty fun _ => hA _).some_mem, _, (vec_nonempty fun _ => hA _).some_mem,
    _, (hA _).some_mem, _, (hA _).some_mem, _, (hA _).some_mem, _, (hA _).some_mem, _, (hA _).some_mem, _, (hA _).some_mem,
    _, (hA _).some_mem, rfl⟩

lemma age_edges_nonempty (hA : ∀ x, (A.rnd x).Nonempty) (t : Fin (n + 3) → ℝ) : (Rounded.get_lg_age_bin_edges A t).Nonempty :=
  ⟨_, _, (dt_nonempty hA t).some_mem, _, (vec_nonempty fun _ => hA _).some_mem, _, (vec_nonempty fun _ => hA _).some_mem,
    _, (hA _).some_mem, _, (hA _).some_mem, _, (hA _).some_mem, _, (hA _).some_mem, _, (hA _).some_mem, rfl⟩

lemma lgt_birth_nonempty (hA : ∀ x, (A.rnd x).Nonempty) (hv : 0 ≤ v) (T a : ℝ) : (Rounded.get_lgt_birth A v T a).Nonempty :=
  ⟨_, _, (exp10_nonempty hv _).some_mem, _, (hA _).some_mem, _, (hA _).some_mem, (log10_nonempty hv _).some_mem⟩

lemma logsm_nonempty (hA : ∀ x, (A.rnd x).Nonempty) (hv : 0 ≤ v) (t s : Fin n → ℝ) (sfr_min : ℝ) :
    (Rounded.calc_logsm_table_from_sfh_table A v t s sfr_min).Nonempty :=
  ⟨_, _, (hA _).some_mem, _, (mstar_nonempty hA _ _).some_mem, (vec_nonempty fun _ => log10_nonempty hv _).some_mem⟩

lemma mstar_obs_nonempty [Dtype] (hA : ∀ x, (A.rnd x).Nonempty) (hv : 0 ≤ v) (t s : Fin (n + 2) → ℝ) (t_obs sfr_min : ℝ) :
    (Rounded.mstar_obs A v t s t_obs sfr_min).Nonempty :=
  ⟨_, _, (log10_nonempty hv _).some_mem, _, (vec_nonempty fun _ => log10_nonempty hv _).some_mem, _, (logsm_nonempty hA hv _ _ _).some_mem,
    _, (interp_nonempty hA _ _ _).some_mem, (exp10_nonempty hv _).some_mem⟩

lemma age_weights_nonempty [Dtype] (hA : ∀ x, (A.rnd x).Nonempty) (hv : 0 ≤ v) {d : ℕ} (hd : m + 3 ≤ d) (t s : Fin (n + 2) → ℝ)
    (a : Fin (m + 3) → ℝ) (t_obs sfr_min : ℝ) : (Rounded.calc_age_weights_from_sfh_table A v d t s a t_obs sfr_min).Nonempty :=
  ⟨_, _, (logsm_nonempty hA hv _ _ _).some_mem, _, (vec_nonempty fun _ => log10_nonempty hv _).some_mem,
    _, (age_edges_nonempty hA _).some_mem, _, (vec_nonempty fun _ => lgt_birth_nonempty hA hv _ _).some_mem,
    _, (vec_nonempty fun _ => interp_nonempty hA _ _ _).some_mem, _, (vec_nonempty fun _ => exp10_nonempty hv _).some_mem,
    _, (vec_nonempty fun _ => hA _).some_mem, (normalize_nonempty hA _ (by simpa using hd)).some_mem⟩

/-- float64 -/
noncomputable abbrev f64 : Arith := binary 53 (by norm_num)

/-- the table of the example: times 1 and 10 Gyr -/
noncomputable abbrev tEx : Fin 2 → ℝ := fun i => (10:ℝ) ^ (i : ℕ)

lemma tEx_zero : tEx 0 = 1 := by unfold tEx; simp
lemma tEx_one : tEx 1 = 10 := by unfold tEx; simp

lemma log10_tEx (i : Fin 2) : log10 (tEx i) = (i : ℕ) := by
  unfold log10 tEx; rw [Real.logb_pow]; simp

lemma resolved_tEx : @Resolved 0 Dtype.float64 fun i => log10 (tEx i) := by
  intro i
  simp only [log10_tEx]
  fin_cases i
  simp [Dtype.interpEps, Dtype.float64]
  norm_num

lemma massEx (i : Fin 2) : @massFormed 0 Dtype.float64 tEx (fun _ => 1) 1e-14 (tEx i) =
    Utils.cumulative_mstar_formed tEx (fun _ => 1) i := by
  letI := Dtype.float64
  have := massFormed_table (s := fun _ => 1) (sfr_min := 1e-14) (strictMono_pow10 2) (by norm_num) (by norm_num) resolved_tEx i
  rw [this]
  congr 1
  funext j
  rw [max_eq_right (by norm_num)]

lemma massEx_bounds : 4e8 ≤ @massFormed 0 Dtype.float64 tEx (fun _ => 1) 1e-14 (tEx 0) ∧
    @massFormed 0 Dtype.float64 tEx (fun _ => 1) 1e-14 (tEx 0) ≤ 5e8 ∧
    @massFormed 0 Dtype.float64 tEx (fun _ => 1) 1e-14 (tEx 1) =
      @massFormed 0 Dtype.float64 tEx (fun _ => 1) 1e-14 (tEx 0) + 9e9 := by
  obtain ⟨f0, fS⟩ := C12_mstar_formula tEx (fun _ => 1)
  have f1 := fS 0
  rw [massEx, massEx]
  have e : Utils.cumulative_mstar_formed tEx (fun _ => 1) 1 = Utils.cumulative_mstar_formed tEx (fun _ => 1) (Fin.succ 0) := rfl
  rw [e, f1, Fin.castSucc_zero, f0, show tEx (Fin.succ 0) = 10 from tEx_one, tEx_zero]
  simp only [trapezoidArea]
  norm_num

/-- the hypotheses of C112 are met: two-point table, double precision -/
theorem conditionedEx : @Conditioned 0 Dtype.float64 f64 (2 ^ (-50:ℤ)) tEx (fun _ => 1) 1e-14 2 20 := by
  letI := Dtype.float64
  obtain ⟨b0, b1, b2⟩ := massEx_bounds
  have hu : f64.u = (1 / 2) ^ 53 := rfl
  have l8 : log10 (1e8:ℝ) = 8 := by
    unfold log10; rw [show (1e8:ℝ) = 10 ^ (8:ℝ) by norm_num]; exact Real.logb_rpow (by norm_num) (by norm_num)
  have l10 : log10 (1e10:ℝ) = 10 := by
    unfold log10; rw [show (1e10:ℝ) = 10 ^ (10:ℝ) by norm_num]; exact Real.logb_rpow (by norm_num) (by norm_num)
  have sz : ∀ i, 8 ≤ log10 (massFormed tEx (fun _ => 1) 1e-14 (tEx i)) ∧ log10 (massFormed tEx (fun _ => 1) 1e-14 (tEx i)) ≤ 10 := by
    intro i
    rw [← l8, ← l10]
    constructor
    · refine log10_le (by norm_num) ?_
      fin_cases i
      · show _ ≤ massFormed tEx (fun _ => 1) 1e-14 (tEx 0); norm_num at b0 ⊢; linarith
      · show _ ≤ massFormed tEx (fun _ => 1) 1e-14 (tEx 1); norm_num at b0 b2 ⊢; linarith
    · refine log10_le (massFormed_pos _) ?_
      fin_cases i
      · show massFormed tEx (fun _ => 1) 1e-14 (tEx 0) ≤ _; norm_num at b1 ⊢; linarith
      · show massFormed tEx (fun _ => 1) 1e-14 (tEx 1) ≤ _; norm_num at b1 b2 ⊢; linarith
  refine ⟨by rw [hu]; norm_num, by positivity, strictMono_pow10 2, by rw [tEx_zero]; norm_num,
    by rw [show tEx (Fin.last 1) = 10 from tEx_one]; norm_num, ?_, by norm_num, ?_, by norm_num, ?_⟩
  · intro i
    have e1 := log10_tEx i.succ
    have e2 := log10_tEx i.castSucc
    unfold log10 at e1 e2
    rw [e1, e2, hu]
    have e3 : (((i.succ : Fin 2) : ℕ):ℝ) - (((i.castSucc : Fin 2) : ℕ) : ℝ) = 1 := by fin_cases i; simp
    rw [e3]
    show (2:ℝ)⁻¹ ^ 104 < _
    norm_num
  · intro i
    have e1 := log10_tEx i.succ
    have e2 := log10_tEx i.castSucc
    unfold log10 at e1 e2
    rw [e1, e2]
    have h1 := (sz i.succ).2
    have h2 := (sz i.castSucc).1
    unfold log10 at h1 h2
    have e3 : (2:ℝ) * ((((i.succ : Fin 2) : ℕ):ℝ) - (((i.castSucc : Fin 2) : ℕ) : ℝ)) = 2 := by fin_cases i; simp
    linarith
  · intro i
    have := sz i
    unfold log10 at this
    rw [abs_le]; constructor <;> linarith

/-- the double-precision theorems apply to a concrete machine computation -/
example : letI := Dtype.float64
    ∃ (a : Fin 3 → ℝ) (w : Fin 3 → ℝ) (M : ℝ), w ∈ Rounded.calc_age_weights_from_sfh_table f64 (2 ^ (-50:ℤ)) 3 tEx (fun _ => 1) a 10 1e-14 ∧
      M ∈ Rounded.mstar_obs f64 (2 ^ (-50:ℤ)) tEx (fun _ => 1) 10 1e-14 ∧
      |M - SspWeights.mstar_obs tEx (fun _ => 1) 10 1e-14| ≤ 1.4e-11 * SspWeights.mstar_obs tEx (fun _ => 1) 10 1e-14 ∧
      ∀ i, |w i - StellarAgeWeights.calc_age_weights_from_sfh_table tEx (fun _ => 1) a 10 1e-14 i| ≤ 3.1e-8 := by
  letI := Dtype.float64
  have hA := binary_nonempty 53 (by norm_num)
  have hv : (0:ℝ) ≤ 2 ^ (-50:ℤ) := by positivity
  have hu : f64.u ≤ 2 ^ (-53:ℤ) := by show ((1:ℝ) / 2) ^ 53 ≤ _; norm_num
  obtain ⟨b0, b1, b2⟩ := massEx_bounds
  set a : Fin 3 → ℝ := fun i => (-2:ℝ) + i * 2 with ha
  obtain ⟨w, hw⟩ := age_weights_nonempty (A := f64) (v := 2 ^ (-50:ℤ)) (m := 0) (n := 0) hA hv (d := 3) le_rfl tEx (fun _ => 1) a 10 1e-14
  obtain ⟨M, hM⟩ := mstar_obs_nonempty (A := f64) (v := 2 ^ (-50:ℤ)) (n := 0) hA hv tEx (fun _ => 1) 10 1e-14
  have edge0 : StellarAgeWeights.get_lg_age_bin_edges a 0 = -3 := by rw [lg_age_edges_eq, edges_zero]; norm_num [ha]
  have edge3 : StellarAgeWeights.get_lg_age_bin_edges a (Fin.last 3) = 3 := by
    rw [lg_age_edges_eq, edges_last, C06_uniform (n := 0)]; norm_num [ha]
  have hK := fun x y hx hy => C112_growth_rate conditionedEx (by norm_num) (x := x) (y := y) hx hy
  have hlast : massFormed tEx (fun _ => 1) 1e-14 (tEx (Fin.last 1)) = massFormed tEx (fun _ => 1) 1e-14 (tEx 1) := rfl
  have hpos : 0 < massFormed tEx (fun _ => 1) 1e-14 (tEx (Fin.last 1)) := massFormed_pos _
  have ht0 := tEx_zero
  refine ⟨a, w, M, hw, hM, C112_mstar_obs_float64 conditionedEx hu le_rfl (by norm_num) (by norm_num) le_rfl (by norm_num) (by norm_num) hM,
    fun i => C112_age_weights_float64 conditionedEx hu le_rfl (by norm_num) (by norm_num) (by norm_num) le_rfl ?_ ?_ hK ?_ (by norm_num)
      (by norm_num) ?_ (by norm_num) hw i⟩
  · intro i; fin_cases i <;> simp [ha] <;> norm_num
  · exact (C17_age_edges_mono a (mildlySpaced_uniform (-2) 2 (by norm_num))).monotone
  · rw [ht0]; linarith
  · have c3 : birthTime 10 (StellarAgeWeights.get_lg_age_bin_edges a (Fin.last 3)) ≤ 1 := by
      rw [edge3]; unfold birthTime; norm_num
    have d3 := massFormed_before (t := tEx) (s := fun _ => 1) (sfr_min := 1e-14) (strictMono_pow10 2) (by rw [tEx_zero]; norm_num) (birthTime_pos 10 _)
      (c3.trans tEx_zero.ge)
    have c0 : birthTime 10 (StellarAgeWeights.get_lg_age_bin_edges a 0) = 10 - 1 / 1000 := by
      rw [edge0]; unfold birthTime; rw [Real.rpow_neg (by norm_num)]; norm_num
    have d0 := hK 10 (10 - 1 / 1000) (by norm_num) (by norm_num)
    rw [ht0, show |(10:ℝ) - (10 - 1 / 1000)| = 1 / 1000 by norm_num] at d0
    have d1 := (abs_le.1 d0).2
    have e10 : massFormed tEx (fun _ => 1) 1e-14 10 = massFormed tEx (fun _ => 1) 1e-14 (tEx 1) := by rw [tEx_one]
    rw [e10] at d1
    rw [d3, c0]
    rw [hlast] at hpos d1 ⊢
    generalize massFormed tEx (fun _ => 1) 1e-14 (tEx 0) = p at *
    generalize massFormed tEx (fun _ => 1) 1e-14 (tEx 1) = q at *
    generalize massFormed tEx (fun _ => 1) 1e-14 (10 - 1 / 1000) = r at *
    norm_num at b0 b1 b2 d1 ⊢
    linarith

end Dsps.Props
